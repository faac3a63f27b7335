L=[]
L.append('''import Verif.Field.Linear

/-!
# Multiplication by a small constant

The accumulator steps are written out once for each limb.
-/

namespace Ed448

/-- The literal `0xfffffff` as it is elaborated in the model. -/
local notation "M28" => @OfNat.ofNat (BitVec 64) 268435455 BitVec.instOfNat

theorem mask28_64 (z : W64) : (lo32 (z &&& M28)).toNat = z.toNat % 2 ^ 28 := by
  simp only [lo32, BitVec.toNat_setWidth, BitVec.toNat_and]
  rw [show BitVec.toNat M28 = 2 ^ 28 - 1 from rfl, Nat.and_two_pow_sub_one_eq_mod]
  have := z.isLt
  omega

theorem addU32_ok {a b : W32} (h : a.toNat + b.toNat < 2 ^ 32) : addU32 a b = .ok (a + b) := by
  rw [addU32, if_pos h]

theorem addU64_ok {a b : W64} (h : a.toNat + b.toNat < 2 ^ 64) : addU64 a b = .ok (a + b) := by
  rw [addU64, if_pos h]

/-- `mul_w` multiplies by a constant below 2^20. -/
theorem mul_w_spec {x : BN} (hx : x.Red) {c : ℕ} (hc : c < 2 ^ 20) :
    ∃ r, mul_w x (BitVec.ofNat 64 c) = .ok r ∧ r.toF = (c : F) * x.toF ∧ r.Red := by
  obtain ⟨hx0, hx1, hx2, hx3, hx4, hx5, hx6, hx7, hx8, hx9, hx10, hx11, hx12, hx13, hx14, hx15⟩ := hx
  simp only [RB] at *
  have hwhi : lo32 (BitVec.ofNat 64 c >>> 28) = 0#32 := by
    apply BitVec.eq_of_toNat_eq
    simp only [lo32, BitVec.toNat_setWidth, shr28_64, BitVec.toNat_ofNat, Nat.zero_mod]
    omega
  have hwlo : u64 (lo32 (BitVec.ofNat 64 c &&& M28)) = ((c : ℕ) : W64) := by
    rw [u64_eq_cast, mask28_64, BitVec.toNat_ofNat]
    congr 1
    omega
  have z0 : ∀ y : W32, u64 0#32 * u64 y = 0#64 := fun y => by simp [u64]
  have a0 : ∀ y : W64, y + 0#64 = y := BitVec.add_zero
  have prod : ∀ y : W32, ((c : ℕ) : W64) * u64 y = ((c * y.toNat : ℕ) : W64) := fun y => by
    rw [u64_eq_cast, Nat.cast_mul]
  have hb : ∀ y : W32, y.toNat < 2 ^ 28 + 2 ^ 11 → c * y.toNat ≤ 2 ^ 20 * (2 ^ 28 + 2 ^ 11) :=
    fun y hy => Nat.mul_le_mul hc.le hy.le
  have hadd := addU32_ok (a := x.l15) (b := x.l7) (by omega)
  unfold mul_w
  simp only [hwhi, hwlo, hadd, z0, prod, a0, bind, Except.bind]''')
for i in range(16):
    L.append(f'  have b{i} := hb _ hx{i}')
L.append('  have hev : (c : F) * x.toF = '+' + '.join(f'((c * x.l{i}.toNat : ℕ) : F) * (2 ^ 28) ^ {i}' for i in range(16))+''' := by
    rw [BN.toF_eq, BN.ev]; simp only [Nat.cast_mul]; ring''')
for i in range(16):
    L.append(f'  generalize c * x.l{i}.toNat = m{i} at *')
for r,off in (('r',0),('s',8)):
    L.append(f'''  obtain ⟨{r}0, h{r}0⟩ : ∃ z : W64, z = ((m{off} : ℕ) : W64) := ⟨_, rfl⟩
  have n{r}0 : {r}0.toNat = m{off} := by rw [h{r}0]; exact acc0_toNat _ (by omega)
  rw [← h{r}0]''')
    for i in range(1,8):
        L.append(f'''  obtain ⟨{r}{i}, h{r}{i}⟩ : ∃ z : W64, z = {r}{i-1} >>> 28 + ((m{i+off} : ℕ) : W64) := ⟨_, rfl⟩
  have n{r}{i} : {r}{i}.toNat = {r}{i-1}.toNat / 2 ^ 28 + m{i+off} := by
    rw [h{r}{i}, acc_toNat _ _ (by rw [shr28_64]; omega), shr28_64]
  rw [← h{r}{i}]''')
L.append('''  have g : ∀ z : W64, (u64 (lo32 (z &&& M28))).toNat = z.toNat % 2 ^ 28 := fun z => by
    simp only [u64, BitVec.toNat_setWidth, mask28_64 z]
    omega
  have g' : ∀ z : W64, (lo32 (z &&& M28)).toNat = z.toNat % 2 ^ 28 := mask28_64
  rw [addU64_ok (a := s7 >>> 28) (b := u64 (lo32 (s0 &&& M28)))
    (by rw [shr28_64, g]; omega)]
  obtain ⟨u, hu⟩ : ∃ z : W64, z = s7 >>> 28 + u64 (lo32 (s0 &&& M28)) := ⟨_, rfl⟩
  have nu : u.toNat = s7.toNat / 2 ^ 28 + s0.toNat % 2 ^ 28 := by
    rw [hu, BitVec.toNat_add, shr28_64, g]; omega
  simp only [← hu]
  rw [addU64_ok (a := r7 >>> 28) (b := u) (by rw [shr28_64]; omega)]
  obtain ⟨y, hy⟩ : ∃ z : W64, z = r7 >>> 28 + u := ⟨_, rfl⟩
  have ny : y.toNat = r7.toNat / 2 ^ 28 + u.toNat := by
    rw [hy, BitVec.toNat_add, shr28_64]; omega
  simp only [← hy]
  rw [addU64_ok (a := s7 >>> 28) (b := u64 (lo32 (r0 &&& M28)))
    (by rw [shr28_64, g]; omega)]
  obtain ⟨v, hv⟩ : ∃ z : W64, z = s7 >>> 28 + u64 (lo32 (r0 &&& M28)) := ⟨_, rfl⟩
  have nv : v.toNat = s7.toNat / 2 ^ 28 + r0.toNat % 2 ^ 28 := by
    rw [hv, BitVec.toNat_add, shr28_64, g]; omega
  simp only [← hv]
  refine ⟨_, rfl, ?_⟩
  have l1 : (lo32 (r1 &&& M28) + lo32 (v >>> 28)).toNat = r1.toNat % 2 ^ 28 + v.toNat / 2 ^ 28 := by
    rw [BitVec.toNat_add, g']
    simp only [lo32, BitVec.toNat_setWidth, shr28_64]
    omega
  have l9 : (lo32 (s1 &&& M28) + lo32 (y >>> 28)).toNat = s1.toNat % 2 ^ 28 + y.toNat / 2 ^ 28 := by
    rw [BitVec.toNat_add, g']
    simp only [lo32, BitVec.toNat_setWidth, shr28_64]
    omega
  constructor
  · rw [hev]
    simp only [BN.toF_eq, BN.ev, g', l1, l9]
    have ht := t16''')
for r in 'rs':
    for i in range(8):
        L.append(f'    have e{r}{i} := divmod F {r}{i}.toNat (2 ^ 28)')
        L.append(f'    have f{r}{i} := congrArg (Nat.cast (R := F)) n{r}{i}')
L.append('''    have ev := divmod F v.toNat (2 ^ 28)
    have ey := divmod F y.toNat (2 ^ 28)
    have fv := congrArg (Nat.cast (R := F)) nv
    have fy := congrArg (Nat.cast (R := F)) ny
    have fu := congrArg (Nat.cast (R := F)) nu
    simp only [Nat.cast_add, Nat.cast_pow, Nat.cast_ofNat] at *
    generalize (2 : F) ^ 28 = t at *''')
terms=['(-1) * ev - t ^ 8 * ey + fv + t ^ 8 * fy + t ^ 8 * fu']
for r,sh in (('r',0),('s',8)):
    for i in range(8):
        terms.append(f'- t ^ {i+sh} * e{r}{i} + t ^ {i+sh} * f{r}{i}')
L.append('    linear_combination '+' '.join(terms)+' - ((s7.toNat / 2 ^ 28 : ℕ) : F) * ht')
L.append('''  · simp only [BN.Lt, g', l1, l9, RB]
    refine ⟨?_, ?_, ?_, ?_, ?_, ?_, ?_, ?_, ?_, ?_, ?_, ?_, ?_, ?_, ?_, ?_⟩ <;> omega

/-- Multiplication by a negative curve constant. -/
theorem mul_signed_spec {x : BN} (hx : x.Red) {c : ℕ} (hc : c < 2 ^ 20) :
    ∃ r, mul_with_signed_curve_constant x (-(c : ℤ)) = .ok r ∧ r.toF = -(c : F) * x.toF ∧ r.Red := by
  obtain ⟨r, h1, h2, h3⟩ := mul_w_spec hx hc
  have hneg : ¬ (-(c : ℤ) > 0) := by omega
  have hs := sub_spec red_zero h3
  refine ⟨sub BIG_ZERO r, ?_, ?_, hs.2⟩
  · unfold mul_with_signed_curve_constant
    rw [if_neg hneg, neg_neg, BitVec.ofInt_natCast, h1]
    rfl
  · rw [hs.1, toF_zero, h2]; ring

end Ed448
''')
open('/verif/lean/Verif/Field/MulW.lean','w').write('\n'.join(L))
