import Verif.Checked.Loop
import Verif.Scalar.Bytes

/-!
# The checked loops of src/scalar.rs return what the model says
-/

namespace Ed448

/-- Destructuring a pair in a `do` block. -/
theorem bind_ok' {α β : Type} (x : α) (f : α → Rust β) : ((Except.ok x : Rust α) >>= f) = f x := rfl

theorem pure_ok {α : Type} (x : α) : (pure x : Rust α) = .ok x := rfl

/-! ## `sub_extra`, `add`, `sub` -/

def fSub (m s : W32) (chain : ℤ) : W32 × ℤ :=
  (BitVec.ofInt 32 (chain + ((m.toNat : ℤ) - s.toNat)), (chain + ((m.toNat : ℤ) - s.toNat)) / 2 ^ 32)

theorem subChain_scan : ∀ (a b : List W32) (c : ℤ), subChain a b c = scan fSub a b c
  | [], [], _ => rfl
  | [], _ :: _, _ => rfl
  | _ :: _, [], _ => rfl
  | m :: ms, s :: ss, c => by simp only [subChain, scan, subChain_scan ms ss]; rfl

def fMask (borrow : ℤ) (r q : W32) (chain : ℤ) : W32 × ℤ :=
  (BitVec.ofInt 32 (chain + ((r.toNat : ℤ) + ((u64 q &&& BitVec.ofInt 64 borrow).toNat : ℤ))),
    (chain + ((r.toNat : ℤ) + ((u64 q &&& BitVec.ofInt 64 borrow).toNat : ℤ))) / 2 ^ 32)

theorem addMaskChain_scan (borrow : ℤ) : ∀ (a b : List W32) (c : ℤ), addMaskChain borrow a b c = (scan (fMask borrow) a b c).1
  | [], [], _ => rfl
  | [], _ :: _, _ => rfl
  | _ :: _, [], _ => rfl
  | m :: ms, s :: ss, c => by simp only [addMaskChain, scan, addMaskChain_scan borrow ms ss]; rfl

theorem masked_lt (q : W32) (b : W64) : (u64 q &&& b).toNat < 2 ^ 32 := by
  rw [BitVec.toNat_and]
  have := Nat.and_le_left (n := (u64 q).toNat) (m := b.toNat)
  have h := toNat_u64 q
  have := q.isLt
  omega

theorem masked_toInt (q : W32) (b : W64) : (u64 q &&& b).toInt = ((u64 q &&& b).toNat : ℤ) := by
  rw [BitVec.toInt_eq_toNat_of_lt]
  have := masked_lt q b
  omega

theorem subChain_bounds (a b : List W32) (c : ℤ) (h : -2 ≤ c ∧ c ≤ 2) : -2 ≤ (subChain a b c).2 ∧ (subChain a b c).2 ≤ 2 := by
  rw [subChain_scan]
  refine scan_inv fSub (fun c => -2 ≤ c ∧ c ≤ 2) ?_ a b c h
  intro x y st hst
  have := x.isLt
  have := y.isLt
  simp only [fSub]
  omega

/-- The loops of `sub_extra` neither overflow nor leave the arrays, and compute `sub_extra`. -/
theorem Chk.sub_extra_eq (a b : Scalar) (c : W32) : Chk.sub_extra a.1 b.1 c = .ok (Ed448.sub_extra a b c).1 := by
  have la := a.2
  have lb := b.2
  have lq := SCALAR_Q.2
  have h1 := forTo_scan 14 fSub (fun c => -2 ≤ c ∧ c ≤ 2)
    (by
      intro x y st hst
      have := x.isLt
      have := y.isLt
      simp only [fSub]
      omega) a.1 b.1 la lb (List.replicate 14 0) (by simp) 0 (by omega)
    (fun i (r, chain) => do
      let m ← idx a.1 i
      let s ← idx b.1 i
      let d ← chkI64 ((m.toNat : Int) - (s.toNat : Int))
      let chain ← chkI64 (chain + d)
      let r ← setIdx r i (BitVec.ofInt 32 chain)
      pure (r, chain / 2 ^ 32))
    (by
      intro i hi r st hst hl _
      have h1 := (a.1[i]'(by omega)).isLt
      have h2 := (b.1[i]'(by omega)).isLt
      dsimp only
      rw [idx_eq _ _ (by omega), bind_ok', idx_eq _ _ (by omega), bind_ok', chkI64_ok (by omega) (by omega), bind_ok',
        chkI64_ok (by omega) (by omega), bind_ok', setIdx_eq _ _ _ (by omega)]
      rfl)
  rw [← subChain_scan] at h1
  have hb := subChain_bounds a.1 b.1 0 (by omega)
  have hc := c.isLt
  have lr : (subChain a.1 b.1 0).1.length = 14 := by rw [subChain_length, la, lb]; rfl
  have h2 := forTo_scan 14 (fMask ((subChain a.1 b.1 0).2 + (c.toNat : ℤ))) (fun c => 0 ≤ c ∧ c ≤ 2)
    (by
      intro x y st hst
      have := x.isLt
      have := masked_lt y (BitVec.ofInt 64 ((subChain a.1 b.1 0).2 + (c.toNat : ℤ)))
      simp only [fMask]
      omega) (subChain a.1 b.1 0).1 SCALAR_Q.1 lr lq (subChain a.1 b.1 0).1 lr 0 (by omega)
    (fun i (r, chain) => do
      let ri ← idx r i
      let qi ← idx SCALAR_Q.1 i
      let d ← chkI64 ((ri.toNat : Int) + (u64 qi &&& BitVec.ofInt 64 ((subChain a.1 b.1 0).2 + (c.toNat : ℤ))).toInt)
      let chain ← chkI64 (chain + d)
      let r ← setIdx r i (BitVec.ofInt 32 chain)
      pure (r, chain / 2 ^ 32))
    (by
      intro i hi r st hst hl hr
      have h1 := ((subChain a.1 b.1 0).1[i]'(by omega)).isLt
      have h2 := masked_lt (SCALAR_Q.1[i]'(by omega)) (BitVec.ofInt 64 ((subChain a.1 b.1 0).2 + (c.toNat : ℤ)))
      dsimp only
      rw [idx_eq _ _ (by omega), bind_ok', idx_eq _ _ (by omega), bind_ok', masked_toInt, hr, chkI64_ok (by omega) (by omega), bind_ok',
        chkI64_ok (by omega) (by omega), bind_ok', setIdx_eq _ _ _ (by omega)]
      rfl)
  unfold Chk.sub_extra
  dsimp only
  rw [h1, bind_ok']
  rw [chkI64_ok (by omega) (by omega), bind_ok', h2, bind_ok']
  rw [pure_ok, ← addMaskChain_scan]
  rfl

def fAdd (x y : W32) (chain : ℕ) : W32 × ℕ := (BitVec.ofNat 32 (chain + (x.toNat + y.toNat)), (chain + (x.toNat + y.toNat)) / 2 ^ 32)

theorem addChain_scan : ∀ (a b : List W32) (c : ℕ), addChain a b c = scan fAdd a b c
  | [], [], _ => rfl
  | [], _ :: _, _ => rfl
  | _ :: _, [], _ => rfl
  | m :: ms, s :: ss, c => by simp only [addChain, scan, addChain_scan ms ss]; rfl

/-- The loop of `add` neither overflows nor leaves the arrays, and computes `add`. -/
theorem Chk.add_eq (a b : Scalar) : Chk.add a.1 b.1 = .ok (scalarAdd a b).1 := by
  have la := a.2
  have lb := b.2
  have h1 := forTo_scan 14 fAdd (fun c => c ≤ 2)
    (by
      intro x y st hst
      have := x.isLt
      have := y.isLt
      simp only [fAdd]
      omega) a.1 b.1 la lb (List.replicate 14 0) (by simp) 0 (by omega)
    (fun i (r, chain) => do
      let x ← idx a.1 i
      let y ← idx b.1 i
      let d ← chkU64 (x.toNat + y.toNat)
      let chain ← chkU64 (chain + d)
      let r ← setIdx r i (BitVec.ofNat 32 chain)
      pure (r, chain / 2 ^ 32))
    (by
      intro i hi r st hst hl _
      have h1 := (a.1[i]'(by omega)).isLt
      have h2 := (b.1[i]'(by omega)).isLt
      dsimp only
      rw [idx_eq _ _ (by omega), bind_ok', idx_eq _ _ (by omega), bind_ok', chkU64_ok (by omega), bind_ok',
        chkU64_ok (by omega), bind_ok', setIdx_eq _ _ _ (by omega)]
      rfl)
  rw [← addChain_scan] at h1
  unfold Chk.add
  dsimp only
  rw [h1, bind_ok']
  exact Chk.sub_extra_eq ⟨(addChain a.1 b.1 0).1, by simp [addChain_length, a.2, b.2]⟩ SCALAR_Q _

theorem Chk.sub_eq (a b : Scalar) : Chk.sub a.1 b.1 = .ok (scalarSub a b).1 := Chk.sub_extra_eq a b 0

/-! ## `halve` -/

def fHalve (mask : W32) (s q : W32) (chain : W64) : W32 × W64 :=
  (lo32 (chain + (u64 s + u64 (q &&& mask))), (chain + (u64 s + u64 (q &&& mask))) >>> 32)

theorem halveChain_scan (mask : W32) : ∀ (a b : List W32) (c : W64), halveChain mask a b c = scan (fHalve mask) a b c
  | [], [], _ => rfl
  | [], _ :: _, _ => rfl
  | _ :: _, [], _ => rfl
  | m :: ms, s :: ss, c => by simp only [halveChain, scan, halveChain_scan mask ms ss]; rfl

/-- The words of `shrChain` after `i` iterations of the loop: the first `i` are done. -/
def shrPrefix (l : List W32) (i : ℕ) : List W32 :=
  (List.range i).map (fun j => ((l.getD j 0) >>> 1) ||| ((l.getD (j + 1) 0) <<< 31)) ++ l.drop i

theorem shrPrefix_length (l : List W32) (i : ℕ) (h : i ≤ l.length) : (shrPrefix l i).length = l.length := by
  simp [shrPrefix]; omega

theorem shrChain_prefix : ∀ (l : List W32) (c : W64), (h : l ≠ []) →
    shrChain l c = (shrPrefix l (l.length - 1)).set (l.length - 1) ((l.getLast h >>> 1) ||| lo32 (c <<< 31))
  | [], _, h => absurd rfl h
  | [s], c, _ => by simp [shrChain, shrPrefix]
  | s :: s' :: ss, c, _ => by
    rw [shrChain, shrChain_prefix (s' :: ss) c (by simp)]
    simp only [shrPrefix, List.length_cons, Nat.add_sub_cancel, List.drop_succ_cons, List.getLast_cons_cons]
    rw [List.range_succ_eq_map, List.map_cons, List.map_map, List.cons_append, List.set_cons_succ]
    congr 1

theorem shr_step (l : List W32) (i : ℕ) (h : i + 1 < l.length) :
    (do
      let si ← idx (shrPrefix l i) i
      let sj ← idx (shrPrefix l i) (i + 1)
      setIdx (shrPrefix l i) i ((si >>> 1) ||| (sj <<< 31))) = Except.ok (shrPrefix l (i + 1)) := by
  have hl := shrPrefix_length l i (by omega)
  have hm : ((List.range i).map (fun j => ((l.getD j 0) >>> 1) ||| ((l.getD (j + 1) 0) <<< 31))).length = i := by simp
  have e1 : (shrPrefix l i)[i]'(by omega) = l.getD i 0 := by
    simp only [shrPrefix]
    rw [List.getElem_append_right (by omega), List.getElem_drop, List.getD_eq_getElem?_getD, List.getElem?_eq_getElem (by omega)]
    simp
  have e2 : (shrPrefix l i)[i + 1]'(by omega) = l.getD (i + 1) 0 := by
    simp only [shrPrefix]
    rw [List.getElem_append_right (by omega), List.getElem_drop, List.getD_eq_getElem?_getD, List.getElem?_eq_getElem (by omega)]
    simp
  rw [idx_eq _ _ (by omega), bind_ok', idx_eq _ _ (by omega), bind_ok', setIdx_eq _ _ _ (by omega), e1, e2]
  congr 1
  simp only [shrPrefix]
  rw [List.set_append_right _ _ (by omega), hm, Nat.sub_self, List.drop_eq_getElem_cons (by omega : i < l.length), List.set_cons_zero,
    List.range_succ, List.map_append, List.append_assoc]
  rfl

theorem shrPrefix_last (l : List W32) (n : ℕ) (h : l.length = n + 1) (hne : l ≠ []) (hn : n < (shrPrefix l n).length) :
    (shrPrefix l n)[n] = l.getLast hne := by
  rw [List.getLast_eq_getElem]
  simp only [shrPrefix]
  rw [List.getElem_append_right (by simp), List.getElem_drop]
  congr 1
  simp
  omega

/-- The loops of `halve` stay inside the arrays and compute `halve`. -/
theorem Chk.halve_eq (s : Scalar) : Chk.halve s.1 = .ok (Ed448.halve s).1 := by
  have ls := s.2
  have lq := SCALAR_Q.2
  have h1 := forTo_scan 14 (fHalve (0 - (s.head &&& 1))) (fun _ => True) (by simp) s.1 SCALAR_Q.1 ls lq s.1 ls 0 trivial
    (fun i (r, chain) => do
      let si ← idx r i
      let qi ← idx SCALAR_Q.1 i
      let chain := chain + (u64 si + u64 (qi &&& (0 - (s.head &&& 1))))
      let r ← setIdx r i (lo32 chain)
      pure (r, chain >>> 32))
    (by
      intro i hi r st _ hl hr
      dsimp only
      rw [idx_eq _ _ (by omega), bind_ok', idx_eq _ _ (by omega), bind_ok', setIdx_eq _ _ _ (by omega), hr]
      rfl)
  rw [← halveChain_scan] at h1
  have lr : (halveChain (0 - (s.head &&& 1)) s.1 SCALAR_Q.1 0).1.length = 14 := by rw [halveChain_length, ls, lq]; rfl
  have hne : (halveChain (0 - (s.head &&& 1)) s.1 SCALAR_Q.1 0).1 ≠ [] := by
    intro h; rw [h] at lr; simp at lr
  unfold Chk.halve
  rw [idx_eq _ _ (by omega), bind_ok']
  dsimp only
  rw [show (s.1[0]'(by omega)) = s.head from rfl, h1, bind_ok']
  rw [subU_ok (by omega), bind_ok']
  rw [forTo_eq (14 - 1) (halveChain (0 - (s.head &&& 1)) s.1 SCALAR_Q.1 0).1 _ (shrPrefix (halveChain (0 - (s.head &&& 1)) s.1 SCALAR_Q.1 0).1) rfl
    (fun i hi => shr_step _ i (by omega)), bind_ok']
  have lp := shrPrefix_length (halveChain (0 - (s.head &&& 1)) s.1 SCALAR_Q.1 0).1 (14 - 1) (by omega)
  rw [idx_eq _ _ (by omega), bind_ok', setIdx_eq _ _ _ (by omega)]
  rw [Ed448.halve]
  dsimp only
  rw [shrChain_prefix _ _ hne]
  congr 1
  rw [lr]
  congr 3
  exact shrPrefix_last _ 13 lr hne _

/-! ## `montgomery_multiply`, `mul` -/

def fMac (m : W32) (y o : W32) (chain : W64) : W32 × W64 :=
  (lo32 (u64 m * u64 y + u64 o + chain), (u64 m * u64 y + u64 o + chain) >>> 32)

theorem macRow_scan (m : W32) : ∀ (a b : List W32) (c : W64), macRow m a b c = scan (fMac m) a b c
  | [], [], _ => rfl
  | [], _ :: _, _ => rfl
  | _ :: _, [], _ => rfl
  | y :: ys, o :: os, c => by simp only [macRow, scan, macRow_scan m ys os]; rfl

/-- The second inner loop of `montgomery_multiply`, which stores the words one place lower. -/
theorem macRow_shifted (n : ℕ) (m : W32) (ys out : List W32) (hy : ys.length = n) (ho : out.length = n) :
    forTo n (out, (0 : W64)) (fun j (out, chain) => do
      let qj ← idx ys j
      let oj ← idx out j
      let chain := u64 m * u64 qj + u64 oj + chain
      let out ← if j > 0 then do
          let j1 ← subU j 1
          setIdx out j1 (lo32 chain)
        else pure out
      pure (out, chain >>> 32)) = .ok ((macRow m ys out 0).1.tail ++ out.drop (n - 1), (macRow m ys out 0).2) := by
  rw [forTo_eq n (out, 0) _ (fun i => ((macRow m (ys.take i) (out.take i) 0).1.tail ++ out.drop (i - 1), (macRow m (ys.take i) (out.take i) 0).2))
    (by simp [macRow])]
  · rw [List.take_of_length_le (by omega), List.take_of_length_le (by omega)]
  · intro i hi
    have hiy : i < ys.length := by omega
    have hio : i < out.length := by omega
    have e1 : ys.take (i + 1) = ys.take i ++ [ys[i]] := by rw [List.take_add_one, List.getElem?_eq_getElem (by omega)]; rfl
    have e2 : out.take (i + 1) = out.take i ++ [out[i]] := by rw [List.take_add_one, List.getElem?_eq_getElem (by omega)]; rfl
    have el : (ys.take i).length = (out.take i).length := by simp; omega
    have hlen : (macRow m (ys.take i) (out.take i) 0).1.length = i := by
      rw [macRow_length, List.length_take, List.length_take]; omega
    have hs : macRow m (ys.take (i + 1)) (out.take (i + 1)) 0 =
        ((macRow m (ys.take i) (out.take i) 0).1 ++ [(fMac m (ys[i]'hiy) (out[i]'hio) (macRow m (ys.take i) (out.take i) 0).2).1],
          (fMac m (ys[i]'hiy) (out[i]'hio) (macRow m (ys.take i) (out.take i) 0).2).2) := by
      rw [e1, e2, macRow_scan, scan_snoc _ _ _ _ _ _ el, ← macRow_scan]
    rw [hs]
    generalize macRow m (ys.take i) (out.take i) 0 = R at hlen
    obtain ⟨w, c⟩ := R
    dsimp only at hlen ⊢
    have hget : (w.tail ++ out.drop (i - 1))[i]'(by simp [hlen]; omega) = out[i] := by
      rw [List.getElem_append_right (by simp [hlen])]
      rw [List.getElem_drop]
      congr 1
      simp only [List.length_tail, hlen]
      omega
    rw [idx_eq _ _ (by omega), bind_ok', idx_eq _ _ (by simp [hlen]; omega), bind_ok', hget]
    by_cases h0 : 0 < i
    · rw [if_pos h0, subU_ok (by omega), bind_ok', setIdx_eq _ _ _ (by simp [hlen]; omega), bind_ok', pure_ok]
      congr 2
      rw [List.set_append_right _ _ (by simp [hlen]), List.length_tail, hlen, Nat.sub_self]
      have hw : w ≠ [] := by intro h; rw [h] at hlen; simp at hlen; omega
      rw [List.tail_append_of_ne_nil hw, List.append_assoc, Nat.add_sub_cancel]
      congr 1
      have : out.drop (i - 1) = out[i - 1] :: out.drop i := by
        rw [List.drop_eq_getElem_cons (by omega)]
        congr 2
        omega
      show (out.drop (i - 1)).set 0 (fMac m (ys[i]'hiy) (out[i]'hio) c).1 = _
      generalize (fMac m (ys[i]'hiy) (out[i]'hio) c).1 = v
      rw [this]
      rfl
    · have h0' : i = 0 := by omega
      subst h0'
      have hw : w = [] := List.length_eq_zero_iff.mp hlen
      subst hw
      rw [if_neg h0, pure_ok, bind_ok', pure_ok]
      simp [fMac]

/-- One row of `montgomery_multiply` stays inside the arrays and computes `mmStep`. -/
theorem Chk.mmStep_eq (x y : Scalar) (st : Scalar × W32) (i : ℕ) (hi : i < 14) :
    Chk.mmStep x.1 y.1 i (st.1.1, st.2) =
      .ok ((Ed448.mmStep y st (x.1[i]'(by rw [x.2]; exact hi))).1.1, (Ed448.mmStep y st (x.1[i]'(by rw [x.2]; exact hi))).2) := by
  have lx := x.2
  have ly := y.2
  have lo := st.1.2
  have lq := SCALAR_Q.2
  generalize hxi : x.1[i]'(by rw [x.2]; exact hi) = xi
  have h1 := forTo_scan 14 (fMac xi) (fun _ => True) (by simp) y.1 st.1.1 ly lo st.1.1 lo 0 trivial
    (fun j (out, chain) => do
      let yj ← idx y.1 j
      let oj ← idx out j
      let chain := u64 xi * u64 yj + u64 oj + chain
      let out ← setIdx out j (lo32 chain)
      pure (out, chain >>> 32))
    (by
      intro i hi r st _ hl hr
      dsimp only
      rw [idx_eq _ _ (by omega), bind_ok', idx_eq _ _ (by omega), bind_ok', setIdx_eq _ _ _ (by omega), hr]
      rfl)
  rw [← macRow_scan] at h1
  have lr : (macRow xi y.1 st.1.1 0).1.length = 14 := by rw [macRow_length, ly, lo]; rfl
  unfold Chk.mmStep
  rw [idx_eq _ _ (by omega), bind_ok', hxi, h1, bind_ok']
  dsimp only
  rw [idx_eq _ _ (by omega), bind_ok']
  have h2 := macRow_shifted 14 ((macRow xi y.1 st.1.1 0).1[0] * MONTGOMERY_FACTOR) SCALAR_Q.1 (macRow xi y.1 st.1.1 0).1 lq lr
  rw [h2, bind_ok']
  dsimp only
  have lr' : (macRow ((macRow xi y.1 st.1.1 0).1[0] * MONTGOMERY_FACTOR) SCALAR_Q.1 (macRow xi y.1 st.1.1 0).1 0).1.length = 14 := by
    rw [macRow_length, lq, lr]; rfl
  have lt : (macRow ((macRow xi y.1 st.1.1 0).1[0] * MONTGOMERY_FACTOR) SCALAR_Q.1 (macRow xi y.1 st.1.1 0).1 0).1.tail.length = 13 := by
    rw [List.length_tail, lr']
  have ld : ∃ z, (macRow xi y.1 st.1.1 0).1.drop (14 - 1) = [z] := List.length_eq_one_iff.mp (by rw [List.length_drop, lr])
  obtain ⟨z, hz⟩ := ld
  rw [hz, setIdx_eq _ _ _ (by rw [List.length_append, lt]; simp), bind_ok', List.set_append_right _ _ (by omega), lt]
  rfl

/-- The loops of `montgomery_multiply` stay inside the arrays, its final `sub_extra` does not overflow, and it computes `montgomery_multiply`. -/
theorem Chk.montgomery_multiply_eq (x y : Scalar) : Chk.montgomery_multiply x.1 y.1 = .ok (Ed448.montgomery_multiply x y).1 := by
  have lx := x.2
  have h := forTo_eq 14 ((List.replicate 14 0 : List W32), (0 : W32)) (Chk.mmStep x.1 y.1)
    (fun i => (((x.1.take i).foldl (Ed448.mmStep y) (SCALAR_ZERO, 0)).1.1, ((x.1.take i).foldl (Ed448.mmStep y) (SCALAR_ZERO, 0)).2)) rfl
    (by
      intro i hi
      have e1 : x.1.take (i + 1) = x.1.take i ++ [x.1[i]] := by rw [List.take_add_one, List.getElem?_eq_getElem (by omega)]; rfl
      rw [Chk.mmStep_eq x y _ i hi, e1, List.foldl_append]
      rfl)
  rw [List.take_of_length_le (by omega)] at h
  unfold Chk.montgomery_multiply
  dsimp only
  rw [h, bind_ok']
  exact Chk.sub_extra_eq _ SCALAR_Q _

theorem Chk.mul_eq (x y : Scalar) : Chk.mul x.1 y.1 = .ok (scalarMul x y).1 := by
  rw [Chk.mul, Chk.montgomery_multiply_eq, bind_ok', Chk.montgomery_multiply_eq]
  rfl

end Ed448
