import Verif.Model.Platform
import Verif.Checked.Wnaf

/-!
# Platforms with `u`-bit `usize` compute what the base model computes
-/

namespace Ed448

attribute [local irreducible] Pt.double_internal Pt.add_projected_niels_to_extended Pt.to_projected_niels PNiels.to_extended_point
  TwistedNiels.to_extended Pt.add_niels_to_extended DECAF_WNAF_TABLE Pt.sub_projected_niels_from_extended_point Pt.sub_niels_from_extended_point

/-! ## The digits are small -/

/-- A digit of at most seven bits. -/
def TinyCtl (e : SmvtControl) : Prop := -64 ≤ e.addend ∧ e.addend ≤ 64

theorem wdelta_tiny {tb : ℕ} (htb : tb ≤ 5) (odd : W32) : -64 ≤ (wdelta tb odd).toInt ∧ (wdelta tb odd).toInt ≤ 64 := by
  rw [wdelta_toInt htb, wdigit]
  have h : 2 ^ (tb + 1) ≤ 64 := (Nat.pow_le_pow_right (by norm_num) (by omega : tb + 1 ≤ 6)).trans (by norm_num)
  have h1 : (0 : ℤ) < 2 ^ (tb + 1) := by positivity
  have h2 : (2 : ℤ) ^ (tb + 1) ≤ 64 := by exact_mod_cast h
  have h3 := Nat.mod_lt odd.toNat (Nat.two_pow_pos (tb + 1))
  generalize hM : (2 : ℕ) ^ (tb + 1) = M at *
  have hM' : (2 : ℤ) ^ (tb + 1) = M := by rw [← hM]; norm_num
  rw [hM'] at *
  split <;> omega

theorem wnafInner_tiny {tb w : ℕ} (htb : tb ≤ 5) : ∀ (fuel : ℕ) (control : List SmvtControl) (position : ℕ) (current : W64)
    (r : List SmvtControl × ℕ × W64), wnafInner tb w fuel control position current = .ok r → (∀ e ∈ control, TinyCtl e) → ∀ e ∈ r.1, TinyCtl e
  | 0, _, _, _, _, h, _ => by cases h
  | fuel + 1, control, position, current, r, h, hs => by
    rw [wnafInner] at h
    by_cases hc : current &&& 0xffff ≠ 0
    · rw [if_pos hc] at h
      dsimp only at h
      cases ht : Ed448.trailing_zeroes_32 (lo32 current) with
      | error e => rw [ht, error_bind] at h; cases h
      | ok pos =>
        rw [ht, bind_ok'] at h
        change (chkI64 (current.toInt - (wdelta tb (lo32 current >>> pos.toNat) <<< pos.toNat).toInt) >>= fun c =>
          setIdx control position ⟨(pos.toNat : ℤ) + 16 * ((w : ℤ) - 1), (wdelta tb (lo32 current >>> pos.toNat)).toInt⟩ >>= fun control =>
          decUsize position >>= fun position => wnafInner tb w fuel control position (BitVec.ofInt 64 c)) = _ at h
        have hd := wdelta_tiny htb (lo32 current >>> pos.toNat)
        generalize wdelta tb (lo32 current >>> pos.toNat) = d at h hd
        cases h1 : chkI64 (current.toInt - (d <<< pos.toNat).toInt) with
        | error e => rw [h1, error_bind] at h; cases h
        | ok c =>
          rw [h1, bind_ok'] at h
          cases h2 : setIdx control position ⟨(pos.toNat : ℤ) + 16 * ((w : ℤ) - 1), d.toInt⟩ with
          | error e => rw [h2, error_bind] at h; cases h
          | ok control' =>
            rw [h2, bind_ok'] at h
            obtain ⟨_, rfl⟩ := setIdx_ok h2
            cases h3 : decUsize position with
            | error e => rw [h3, error_bind] at h; cases h
            | ok position' =>
              rw [h3, bind_ok'] at h
              refine wnafInner_tiny htb fuel _ _ _ r h fun e he => ?_
              rcases List.mem_or_eq_of_mem_set he with he | rfl
              · exact hs e he
              · exact hd
    · rw [if_neg hc] at h
      obtain rfl := Except.ok.inj h
      exact hs

theorem wnafOuter_tiny {tb : ℕ} (htb : tb ≤ 5) (s : List W32) : ∀ (ws : List ℕ) (control : List SmvtControl) (position : ℕ) (current : W64)
    (r : List SmvtControl × ℕ × W64), wnafOuter tb s ws control position current = .ok r → (∀ e ∈ control, TinyCtl e) → ∀ e ∈ r.1, TinyCtl e
  | [], _, _, _, r, h, hs => by
    obtain rfl := Except.ok.inj h
    exact hs
  | w :: ws, control, position, current, r, h, hs => by
    rw [wnafOuter] at h
    cases h1 : Ed448.wnafAdd s w current with
    | error e => rw [h1, error_bind] at h; cases h
    | ok c =>
      rw [h1, bind_ok'] at h
      cases h2 : wnafInner tb w 17 control position c with
      | error e => rw [h2, error_bind] at h; cases h
      | ok r2 =>
        rw [h2, bind_ok'] at h
        exact wnafOuter_tiny htb s ws _ _ _ r h (wnafInner_tiny htb 17 control position c r2 h2 hs)

theorem wnafCopy_tiny (position : ℕ) : ∀ (is : List ℕ) (control r : List SmvtControl), wnafCopy position is control = .ok r →
    (∀ e ∈ control, TinyCtl e) → ∀ e ∈ r, TinyCtl e
  | [], _, _, h, hs => by
    obtain rfl := Except.ok.inj h
    exact hs
  | i :: is, control, r, h, hs => by
    rw [wnafCopy] at h
    cases h1 : idx control (i + position) with
    | error e => rw [h1, error_bind] at h; cases h
    | ok e =>
      rw [h1, bind_ok'] at h
      cases h2 : setIdx control i e with
      | error e => rw [h2, error_bind] at h; cases h
      | ok c =>
        rw [h2, bind_ok'] at h
        obtain ⟨_, rfl⟩ := setIdx_ok h2
        refine wnafCopy_tiny position is _ r h fun x hx => ?_
        rcases List.mem_or_eq_of_mem_set hx with hx | rfl
        · exact hs x hx
        · exact hs _ (idx_mem h1)

theorem recode_wnaf_tiny {tb : ℕ} (htb : tb ≤ 5) (n : ℕ) (s : Scalar) (ctl : List SmvtControl)
    (h : Ed448.recode_wnaf (List.replicate n ⟨0, 0⟩) s tb = .ok ctl) : ∀ e ∈ ctl, TinyCtl e := by
  have h00 : ∀ e ∈ List.replicate n (⟨0, 0⟩ : SmvtControl), TinyCtl e := fun e he => by
    rw [List.eq_of_mem_replicate he]
    exact ⟨by norm_num, by norm_num⟩
  rw [Ed448.recode_wnaf] at h
  dsimp only at h
  cases h0 : setIdx (List.replicate n (⟨0, 0⟩ : SmvtControl)) (446 / (tb + 1) + 3 - 1) ⟨-1, 0⟩ with
  | error e => rw [h0, error_bind] at h; cases h
  | ok control' =>
    have hsm' : ∀ e ∈ control', TinyCtl e := by
      obtain ⟨_, rfl⟩ := setIdx_ok h0
      intro x hx
      rcases List.mem_or_eq_of_mem_set hx with hx | rfl
      · exact h00 x hx
      · exact ⟨by norm_num, by norm_num⟩
    rw [h0, bind_ok'] at h
    cases h1 : decUsize (446 / (tb + 1) + 3 - 1) with
    | error e => rw [h1, error_bind] at h; cases h
    | ok p0 =>
      rw [h1, bind_ok'] at h
      cases h2 : wnafOuter tb s.1 ((List.range 29).map (· + 1)) control' p0 (u64 (s.head &&& 0xffff)) with
      | error e => rw [h2, error_bind] at h; cases h
      | ok r =>
        rw [h2, bind_ok'] at h
        exact wnafCopy_tiny _ _ _ _ h (wnafOuter_tiny htb s.1 _ _ _ _ _ h2 hsm')

namespace Platform

/-! ## Indices -/

theorem small_pow {u : ℕ} (hu : 16 ≤ u) : 65536 ≤ 2 ^ u := (by norm_num : 65536 ≤ 2 ^ 16).trans (Nat.pow_le_pow_right (by norm_num) hu)

/-- A number that fits. -/
theorem toNat_lit {u : ℕ} (hu : 16 ≤ u) {n : ℕ} (hn : n < 65536) : (BitVec.ofNat u n).toNat = n := by
  rw [BitVec.toNat_ofNat, Nat.mod_eq_of_lt (hn.trans_le (small_pow hu))]

/-- The index from a converted number: the right one if the number is not negative, out of range otherwise. -/
theorem idx_ofInt {α : Type} {u : ℕ} (hu : 16 ≤ u) (l : List α) (hl : l.length ≤ 1000) (x : ℤ) (h1 : -64 ≤ x) (h2 : x ≤ 64) :
    idx l (BitVec.ofInt u x).toNat = idx l (asUsize x) := by
  have hp := small_pow hu
  rcases lt_or_ge x 0 with hx | hx
  · have e : ∀ v, 16 ≤ v → idx l (BitVec.ofInt v x).toNat = .error .bounds := fun v hv => by
      have hpv := small_pow hv
      have : l.length ≤ (BitVec.ofInt v x).toNat := by
        rw [BitVec.toNat_ofInt]
        generalize 2 ^ v = M at *
        have : x % (M : ℤ) = x + M := by
          rw [← Int.add_emod_right, Int.emod_eq_of_lt (by omega) (by omega)]
        rw [this]
        omega
      rw [idx, List.getElem?_eq_none this]
    rw [asUsize, e u hu, e 64 (by norm_num)]
  · have e : ∀ v, 16 ≤ v → (BitVec.ofInt v x).toNat = x.toNat := fun v hv => by
      have hpv := small_pow hv
      rw [BitVec.toNat_ofInt]
      generalize 2 ^ v = M at *
      rw [Int.emod_eq_of_lt hx (by omega)]
    rw [asUsize, e u hu, e 64 (by norm_num)]

theorem idx_half {α : Type} {u : ℕ} (hu : 16 ≤ u) (l : List α) (hl : l.length ≤ 1000) (x : ℤ) (h1 : -64 ≤ x) (h2 : x ≤ 64) :
    idx l (halfIndex u x) = idx l (asUsize x >>> 1) := by
  have hp := small_pow hu
  rw [halfIndex, BitVec.toNat_ushiftRight]
  rcases lt_or_ge x 0 with hx | hx
  · have e : ∀ v, 16 ≤ v → idx l ((BitVec.ofInt v x).toNat >>> 1) = .error .bounds := fun v hv => by
      have hpv := small_pow hv
      have : l.length ≤ (BitVec.ofInt v x).toNat >>> 1 := by
        rw [BitVec.toNat_ofInt, Nat.shiftRight_eq_div_pow]
        generalize 2 ^ v = M at *
        have : x % (M : ℤ) = x + M := by
          rw [← Int.add_emod_right, Int.emod_eq_of_lt (by omega) (by omega)]
        rw [this]
        omega
      rw [idx, List.getElem?_eq_none this]
    rw [asUsize, e u hu, e 64 (by norm_num)]
  · have e : ∀ v, 16 ≤ v → (BitVec.ofInt v x).toNat = x.toNat := fun v hv => by
      have hpv := small_pow hv
      rw [BitVec.toNat_ofInt]
      generalize 2 ^ v = M at *
      rw [Int.emod_eq_of_lt hx (by omega)]
    rw [asUsize, e u hu, e 64 (by norm_num)]

/-! ## The functions -/

theorem byte_width {u : ℕ} (hu : 16 ≤ u) (b : Byte) : (b.setWidth u).setWidth 64 = b.setWidth 64 := by
  have hp := small_pow hu
  apply BitVec.eq_of_toNat_eq
  have := b.isLt
  rw [BitVec.toNat_setWidth, BitVec.toNat_setWidth, BitVec.toNat_setWidth, Nat.mod_eq_of_lt (by omega : b.toNat < 2 ^ u)]

theorem desFill_eq {u : ℕ} (hu : 16 ≤ u) : ∀ k input fill j buffer, desFill u k input fill j buffer = Ed448.desFill k input fill j buffer
  | 0, _, _, _, _ => rfl
  | k + 1, input, fill, j, buffer => by
    rw [desFill, Ed448.desFill]
    split
    · dsimp only
      rw [desFill_eq hu k]
      have e : ∀ b : Byte, (if j = 56 - 1 then b.setWidth u &&& ~~~(0 : BitVec u) else b.setWidth u) = b.setWidth u := fun b => by
        split
        · rw [show ~~~(0 : BitVec u) = BitVec.allOnes u from BitVec.not_zero, BitVec.and_allOnes]
        · rfl
      rw [e, byte_width hu]
    · rfl

theorem desLoop_eq {u : ℕ} (hu : 16 ≤ u) (input : Arr Byte 57) : ∀ l fill j buffer scarry,
    desLoop u input l fill j buffer scarry = Ed448.desLoop input l fill j buffer scarry
  | [], _, _, _, _ => rfl
  | (i, m) :: rest, fill, j, buffer, scarry => by
    rw [desLoop, Ed448.desLoop, desFill_eq hu]
    simp only [desLoop_eq hu input rest]

theorem dsa_like_deserialize_eq {u : ℕ} (hu : 16 ≤ u) (input : Arr Byte 57) : dsa_like_deserialize u input = Ed448.dsa_like_deserialize input := by
  rw [dsa_like_deserialize, Ed448.dsa_like_deserialize, desLoop_eq hu]

theorem mask_toNat {u : ℕ} (hu : 16 ≤ u) : ((1#u <<< 5) - 1#u).toNat = 31 := by
  have hp := small_pow hu
  rw [BitVec.toNat_sub, BitVec.toNat_shiftLeft, toNat_lit hu (by norm_num), show 1 <<< 5 = 32 from rfl, Nat.mod_eq_of_lt (by omega : 32 < 2 ^ u),
    show 2 ^ u - 1 + 32 = 31 + 2 ^ u by omega, Nat.add_mod_right, Nat.mod_eq_of_lt (by omega)]

theorem lit_sub {u : ℕ} (hu : 16 ≤ u) {a b : ℕ} (ha : a < 65536) (hb : b ≤ a) : (BitVec.ofNat u a - BitVec.ofNat u b).toNat = a - b := by
  have hp := small_pow hu
  rw [BitVec.toNat_sub, toNat_lit hu ha, toNat_lit hu (by omega), show 2 ^ u - b + a = (a - b) + 2 ^ u by omega, Nat.add_mod_right, Nat.mod_eq_of_lt (by omega)]

theorem windowBits_eq {u : ℕ} (hu : 16 ≤ u) (s : List W32) (n : ℕ) (hn : n ≤ 445) : windowBits u s (n : ℤ) = Ed448.windowBits s n := by
  have hp := small_pow hu
  have e0 : BitVec.ofInt u (n : ℤ) = BitVec.ofNat u n := BitVec.ofInt_natCast ..
  have e1 : (BitVec.ofNat u n / 32#u).toNat = n / 32 := by
    rw [BitVec.toNat_udiv, toNat_lit hu (by omega), toNat_lit hu (by omega)]
  have e2 : (BitVec.ofNat u n % 32#u).toNat = n % 32 := by
    rw [BitVec.toNat_umod, toNat_lit hu (by omega), toNat_lit hu (by omega)]
  have e3 : (BitVec.ofNat u n / 32#u + 1#u).toNat = n / 32 + 1 := by
    rw [BitVec.toNat_add, e1, toNat_lit hu (by omega), Nat.mod_eq_of_lt (by omega)]
  have e4 : (32#u - BitVec.ofNat u n % 32#u).toNat = 32 - n % 32 := by
    have : BitVec.ofNat u n % 32#u = BitVec.ofNat u (n % 32) := by
      apply BitVec.eq_of_toNat_eq
      rw [e2, toNat_lit hu (by omega)]
    rw [this, lit_sub hu (by norm_num) (by omega)]
  have e5 : ((1#u <<< 5) - 1#u).setWidth 32 = 31#32 := by
    apply BitVec.eq_of_toNat_eq
    rw [BitVec.toNat_setWidth, mask_toNat hu]
    rfl
  rw [windowBits, Ed448.windowBits]
  dsimp only
  rw [e0, e1, e2, e3, e4, e5, lit_sub hu (by norm_num) (by norm_num), lit_sub hu (by norm_num) (by norm_num), lit_sub hu (by norm_num) (by norm_num)]
  rfl

theorem selectMultiple_eq {u : ℕ} (hu : 16 ≤ u) (l : List PNiels) (s : List W32) (n : ℕ) (hn : n ≤ 445) :
    selectMultiple u l s (n : ℤ) = Ed448.selectMultiple l s n := by
  have hp := small_pow hu
  have e : ∀ b : W32, (b.setWidth u &&& (((1#u <<< 5) - 1#u) >>> 1)).toNat = b.toNat &&& 15 := fun b => by
    have hd : 2 ^ 4 ∣ 2 ^ u := Nat.pow_dvd_pow 2 (by omega)
    rw [BitVec.toNat_and, BitVec.toNat_ushiftRight, mask_toNat hu, BitVec.toNat_setWidth, show 31 >>> 1 = 2 ^ 4 - 1 from rfl, show (15 : ℕ) = 2 ^ 4 - 1 from rfl,
      Nat.and_two_pow_sub_one_eq_mod, Nat.and_two_pow_sub_one_eq_mod, Nat.mod_mod_of_dvd _ hd]
  rw [selectMultiple, Ed448.selectMultiple, windowBits_eq hu s n hn]
  simp only [e]

theorem scalarMulLoop_eq {u : ℕ} (hu : 16 ≤ u) (l : List PNiels) (s : List W32) : ∀ k, k ≤ 89 → ∀ out,
    scalarMulLoop u l s k out = Ed448.scalarMulLoop l s k out
  | 0, _, _ => rfl
  | k + 1, hk, out => by
    rw [scalarMulLoop, Ed448.scalarMulLoop]
    have := selectMultiple_eq hu l s (5 * k) (by omega)
    push_cast at this
    rw [this]
    simp only [scalarMulLoop_eq hu l s k (by omega)]

theorem point_scalar_mul_eq {u : ℕ} (hu : 16 ≤ u) (p : Pt) (s : Scalar) : point_scalar_mul u p s = p.point_scalar_mul s := by
  rw [point_scalar_mul, Pt.point_scalar_mul]
  simp only [scalarMulLoop_eq hu _ _ 89 (le_refl _)]
  have := fun l s => selectMultiple_eq hu l s 445 (le_refl _)
  push_cast at this
  simp only [this]

theorem addVar_eq {u : ℕ} (hu : 16 ≤ u) (l : List PNiels) (hl : l.length ≤ 1000) (i : ℤ) (e : SmvtControl) (he : TinyCtl e) (cp : Bool) (out : Pt) :
    addVar u l i e cp out = Ed448.addVar l i e cp out := by
  obtain ⟨h1, h2⟩ := he
  rw [addVar, Ed448.addVar, idx_half hu l hl _ h1 h2, idx_half hu l hl _ (by omega) (by omega)]

theorem addPre_eq {u : ℕ} (hu : 16 ≤ u) (i : ℤ) (e : SmvtControl) (he : TinyCtl e) (out : Pt) : addPre u i e out = Ed448.addPre i e out := by
  obtain ⟨h1, h2⟩ := he
  have hl : DECAF_WNAF_TABLE.length ≤ 1000 := by decide +kernel
  rw [addPre, Ed448.addPre, idx_half hu _ hl _ h1 h2, idx_half hu _ hl _ (by omega) (by omega)]

theorem bind_congr_ok {α β : Type} (x : Rust α) (f g : α → Rust β) (h : ∀ a, x = .ok a → f a = g a) : (x >>= f) = (x >>= g) := by
  cases x with
  | error e => rfl
  | ok a => exact h a rfl

theorem doubleScalarLoop_eq {u : ℕ} (hu : 16 ≤ u) (cv cp : List SmvtControl) (hv : ∀ e ∈ cv, TinyCtl e) (hp : ∀ e ∈ cp, TinyCtl e) (l : List PNiels)
    (hl : l.length ≤ 1000) : ∀ k a b out, doubleScalarLoop u cv cp l k a b out = Ed448.doubleScalarLoop cv cp l k a b out
  | 0, _, _, _ => rfl
  | k + 1, a, b, out => by
    rw [doubleScalarLoop, Ed448.doubleScalarLoop]
    refine bind_congr_ok _ _ _ fun ev h1 => bind_congr_ok _ _ _ fun ep h2 => ?_
    simp only [addVar_eq hu l hl _ ev (hv _ (idx_mem h1)), addPre_eq hu _ ep (hp _ (idx_mem h2)), doubleScalarLoop_eq hu cv cp hv hp l hl k]

theorem firstDigits_eq {u : ℕ} (hu : 16 ≤ u) (v0 p0 : SmvtControl) (hv : TinyCtl v0) (hp : TinyCtl p0) (l : List PNiels) (hl : l.length ≤ 1000) :
    firstDigits u v0 p0 l = Ed448.firstDigits v0 p0 l := by
  obtain ⟨h1, h2⟩ := hv
  obtain ⟨h3, h4⟩ := hp
  have hl' : DECAF_WNAF_TABLE.length ≤ 1000 := by decide +kernel
  rw [firstDigits, Ed448.firstDigits]
  rw [idx_half hu _ hl' _ h3 h4, idx_ofInt hu l hl _ (by omega) (by omega)]

theorem wnafTableLoop_length (tw : PNiels) : ∀ k p l, wnafTableLoop tw k p = .ok l → l.length = k
  | 0, _, _, h => by
    obtain rfl := Except.ok.inj h
    rfl
  | k + 1, p, l, h => by
    rw [wnafTableLoop] at h
    cases h1 : (p.add_projected_niels_to_extended tw false).to_projected_niels with
    | error e => rw [h1, error_bind] at h; cases h
    | ok e =>
      rw [h1, bind_ok'] at h
      cases h2 : wnafTableLoop tw k (p.add_projected_niels_to_extended tw false) with
      | error e => rw [h2, error_bind] at h; cases h
      | ok r =>
        rw [h2, bind_ok'] at h
        obtain rfl := Except.ok.inj h
        rw [List.length_cons, wnafTableLoop_length tw k _ r h2]

theorem prepare_length (p : Pt) (l : List PNiels) (h : decaf_prepare_wnaf_table p = .ok l) : l.length = 8 := by
  rw [decaf_prepare_wnaf_table] at h
  cases h1 : p.to_projected_niels with
  | error e => rw [h1, error_bind] at h; cases h
  | ok d0 =>
    rw [h1, bind_ok'] at h
    dsimp only at h
    cases h2 : (p.double_internal false).to_projected_niels with
    | error e => rw [h2, error_bind] at h; cases h
    | ok tw =>
      rw [h2, bind_ok'] at h
      cases h3 : ((p.double_internal false).add_projected_niels_to_extended d0 false).to_projected_niels with
      | error e => rw [h3, error_bind] at h; cases h
      | ok d1 =>
        rw [h3, bind_ok'] at h
        cases h4 : wnafTableLoop tw 6 ((p.double_internal false).add_projected_niels_to_extended d0 false) with
        | error e => rw [h4, error_bind] at h; cases h
        | ok r =>
          rw [h4, bind_ok'] at h
          obtain rfl := Except.ok.inj h
          rw [List.length_cons, List.length_cons, wnafTableLoop_length _ _ _ _ h4]

theorem point_double_scalamul_eq {u : ℕ} (hu : 16 ≤ u) (p : Pt) (s t : Scalar) :
    point_double_scalamul_non_secret u p s t = p.point_double_scalamul_non_secret s t := by
  rw [point_double_scalamul_non_secret, Pt.point_double_scalamul_non_secret]
  refine bind_congr_ok _ _ _ fun cp h1 => bind_congr_ok _ _ _ fun cv h2 => bind_congr_ok _ _ _ fun l h3 => bind_congr_ok _ _ _ fun v0 h4 =>
    bind_congr_ok _ _ _ fun p0 h5 => ?_
  have hp := recode_wnaf_tiny (by norm_num) 77 s cp h1
  have hv := recode_wnaf_tiny (by norm_num) 115 t cv h2
  have hl : l.length ≤ 1000 := by rw [prepare_length p l h3]; norm_num
  rw [firstDigits_eq hu v0 p0 (hv _ (idx_mem h4)) (hp _ (idx_mem h5)) l hl]
  simp only [doubleScalarLoop_eq hu cv cp hv hp l hl]

theorem eddsa_like_decode_eq {u : ℕ} (hu : 16 ≤ u) (b : List Byte) : eddsa_like_decode u b = Ed448.eddsa_like_decode b := by
  rw [eddsa_like_decode, Ed448.eddsa_like_decode]
  split
  · simp only [eddsaDecode57, Ed448.eddsaDecode57, dsa_like_deserialize_eq hu, decodeFinish, Ed448.decodeFinish, point_scalar_mul_eq hu]
  · rfl

theorem combTab_eq {u : ℕ} (hu : 16 ≤ u) (s : List W32) (i j : ℕ) (hi : i < 18) (hj : j < 5) : ∀ ks, (∀ k ∈ ks, k < 5) → ∀ tab,
    combTab u s i j ks tab = Ed448.combTab s i j ks tab
  | [], _, _ => rfl
  | k :: ks, hk, tab => by
    have hp := small_pow hu
    have hk0 : k < 5 := hk k (by simp)
    have e : BitVec.ofNat u i + 18#u * (BitVec.ofNat u k + BitVec.ofNat u j * 5#u) = BitVec.ofNat u (i + 18 * (k + j * 5)) := by
      rw [BitVec.ofNat_add, BitVec.ofNat_mul, BitVec.ofNat_add, BitVec.ofNat_mul]
    have hb : i + 18 * (k + j * 5) < 65536 := by omega
    rw [combTab, Ed448.combTab, e]
    generalize i + 18 * (k + j * 5) = n at hb
    have e1 : (BitVec.ofNat u n / 32#u).toNat = n / 32 := by rw [BitVec.toNat_udiv, toNat_lit hu hb, toNat_lit hu (by omega)]
    have e2 : (BitVec.ofNat u n % 32#u).toNat = n % 32 := by rw [BitVec.toNat_umod, toNat_lit hu hb, toNat_lit hu (by omega)]
    have e3 : BitVec.ofNat u n < 446#u ↔ n < 446 := by rw [BitVec.lt_def, toNat_lit hu hb, toNat_lit hu (by omega)]
    dsimp only
    simp only [e1, e2, e3, combTab_eq hu s i j hi hj ks fun k h => hk k (by simp [h])]

theorem combSelect_eq {u : ℕ} (hu : 16 ≤ u) (s : List W32) (i j : ℕ) (hi : i < 18) (hj : j < 5) : combSelect u s i j = Ed448.combSelect s i j := by
  have hp := small_pow hu
  have e : ∀ t : W32, ((BitVec.ofNat u j <<< 4) + (t &&& (((1 : W32) <<< 4) - 1)).setWidth u).toNat = (j <<< 4) + (t &&& (((1 : W32) <<< 4) - 1)).toNat := fun t => by
    have ht : (t &&& (((1 : W32) <<< 4) - 1)).toNat < 16 := by
      rw [BitVec.toNat_and, show (((1 : W32) <<< 4) - 1).toNat = 2 ^ 4 - 1 from rfl, Nat.and_two_pow_sub_one_eq_mod]
      exact Nat.mod_lt _ (by norm_num)
    generalize t &&& (((1 : W32) <<< 4) - 1) = t' at ht
    rw [BitVec.toNat_add, BitVec.toNat_shiftLeft, toNat_lit hu (by omega), BitVec.toNat_setWidth, Nat.shiftLeft_eq, Nat.mod_eq_of_lt (by omega : j * 2 ^ 4 < 2 ^ u),
      Nat.mod_eq_of_lt (by omega : t'.toNat < 2 ^ u), Nat.mod_eq_of_lt (by omega)]
  rw [combSelect, Ed448.combSelect, combTab_eq hu s i j hi hj _ (by decide)]
  dsimp only
  simp only [e]

theorem combInner_eq {u : ℕ} (hu : 16 ≤ u) (s : List W32) (i : ℕ) (hi : i < 18) : ∀ js, (∀ j ∈ js, j < 5) → ∀ p, combInner u s i js p = Ed448.combInner s i js p
  | [], _, _ => rfl
  | j :: js, hj, p => by
    rw [combInner, Ed448.combInner, combSelect_eq hu s i j hi (hj j (by simp))]
    simp only [combInner_eq hu s i hi js fun j h => hj j (by simp [h])]

theorem combOuter_eq {u : ℕ} (hu : 16 ≤ u) (s : List W32) : ∀ i, i ≤ 18 → ∀ p, combOuter u s i p = Ed448.combOuter s i p
  | 0, _, _ => rfl
  | i + 1, hi, p => by
    rw [combOuter, Ed448.combOuter]
    simp only [combInner_eq hu s i (by omega) [0, 1, 2, 3, 4] (by decide), combOuter_eq hu s i (by omega)]

theorem precomputed_scalar_mul_eq {u : ℕ} (hu : 16 ≤ u) (s : Scalar) : precomputed_scalar_mul u s = Ed448.precomputed_scalar_mul s := by
  rw [precomputed_scalar_mul, Ed448.precomputed_scalar_mul, combOuter_eq hu _ 18 (le_refl _)]

theorem point_by_secret_eq {u : ℕ} (hu : 16 ≤ u) (p : Arr Byte 57) : point_by_secret u p = Ed448.point_by_secret p := by
  rw [point_by_secret, Ed448.point_by_secret, precomputed_scalar_mul_eq hu]

theorem secret_to_public_eq {u : ℕ} (hu : 16 ≤ u) (p : Arr Byte 57) : secret_to_public u p = Ed448.secret_to_public p := by
  rw [secret_to_public, Ed448.secret_to_public, point_by_secret_eq hu]

theorem derive_eq {u : ℕ} (hu : 16 ≤ u) (xof : Xof) (k : Arr Byte 57) : ed448_derive_public u xof k = Ed448.ed448_derive_public xof k := by
  rw [ed448_derive_public, Ed448.ed448_derive_public, private_to_public, Ed448.private_to_public, secret_to_public_eq hu, secret_to_public_eq hu]

theorem sign_with_eq {u : ℕ} (hu : 16 ≤ u) (xof : Xof) (s n : Arr Byte 57) (m : List Byte) :
    sign_with_secret_and_nonce u xof s n m = Ed448.sign_with_secret_and_nonce xof s n m := by
  simp only [sign_with_secret_and_nonce, Ed448.sign_with_secret_and_nonce, point_by_secret_eq hu, precomputed_scalar_mul_eq hu]

theorem sign_by_private_eq {u : ℕ} (hu : 16 ≤ u) (xof : Xof) (k : Arr Byte 57) (m : List Byte) : sign_by_private u xof k m = Ed448.sign_by_private xof k m := by
  simp only [sign_by_private, Ed448.sign_by_private, point_by_secret_eq hu, precomputed_scalar_mul_eq hu]

theorem sign_eq {u : ℕ} (hu : 16 ≤ u) (xof : Xof) (k : Arr Byte 57) (m : List Byte) : ed448_sign u xof k m = Ed448.ed448_sign xof k m := by
  rw [ed448_sign, Ed448.ed448_sign, sign_by_private_eq hu, sign_with_eq hu]

theorem dsa_verify_eq {u : ℕ} (hu : 16 ≤ u) (xof : Xof) (pk sig m : List Byte) : dsa_verify u xof pk sig m = Ed448.dsa_verify xof pk sig m := by
  have hv : verifyPoints u = Ed448.verifyPoints := by
    funext xof p p2 r s1 s2 m
    simp only [verifyPoints, Ed448.verifyPoints, point_scalar_mul_eq hu, point_double_scalamul_eq hu]
  simp only [dsa_verify, Ed448.dsa_verify, eddsa_like_decode_eq hu, point_scalar_mul_eq hu, hv]
  rfl

theorem verify_eq {u : ℕ} (hu : 16 ≤ u) (xof : Xof) (pk sig m : List Byte) : ed448_verify u xof pk sig m = Ed448.ed448_verify xof pk sig m := by
  rw [ed448_verify, Ed448.ed448_verify, dsa_verify_eq hu]

theorem verify_with_error_eq {u : ℕ} (hu : 16 ≤ u) (xof : Xof) (pk sig m : List Byte) :
    ed448_verify_with_error u xof pk sig m = Ed448.ed448_verify_with_error xof pk sig m := by
  rw [ed448_verify_with_error, Ed448.ed448_verify_with_error, dsa_verify_eq hu]
  rfl

end Platform

end Ed448
