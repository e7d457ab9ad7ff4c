/-
Bit lists: the vocabulary shared by the specifications and the model.

A *bit string* is a `List Bool`, first bit transmitted first.
-/

namespace H264

/-- The number a bit string denotes, most significant bit first (clause 7.2, `u(n)`). -/
def bitsVal : List Bool → Nat
  | [] => 0
  | b :: l => b.toNat * 2 ^ l.length + bitsVal l

/-- The `n`-bit big-endian representation of `v` (its `n` low bits, most significant first). -/
def encU : Nat → Nat → List Bool
  | 0, _ => []
  | n + 1, v => v.testBit n :: encU n v

/-- The bits of a byte string, in transmission order: each byte most significant bit first. -/
def allBits (bs : List UInt8) : List Bool := bs.flatMap (fun b => encU 8 b.toNat)

@[simp] theorem bitsVal_nil : bitsVal [] = 0 := rfl
@[simp] theorem bitsVal_cons (b l) : bitsVal (b :: l) = b.toNat * 2 ^ l.length + bitsVal l := rfl
@[simp] theorem encU_zero (v) : encU 0 v = [] := rfl
@[simp] theorem encU_succ (n v) : encU (n + 1) v = v.testBit n :: encU n v := rfl

@[simp] theorem length_encU (n v : Nat) : (encU n v).length = n := by
  induction n with
  | zero => rfl
  | succ n ih => simp [ih]

theorem bitsVal_lt (l : List Bool) : bitsVal l < 2 ^ l.length := by
  induction l with
  | nil => simp
  | cons b l ih =>
    simp only [bitsVal_cons, List.length_cons, Nat.pow_succ]
    cases b <;> simp <;> omega

theorem bitsVal_append (l m : List Bool) :
    bitsVal (l ++ m) = bitsVal l * 2 ^ m.length + bitsVal m := by
  induction l with
  | nil => simp
  | cons b l ih =>
    simp only [List.cons_append, bitsVal_cons, ih, List.length_append, Nat.pow_add, Nat.add_mul]
    rw [Nat.mul_assoc]; omega

theorem bitsVal_encU_mod (n v : Nat) : bitsVal (encU n v) = v % 2 ^ n := by
  induction n with
  | zero => simp [Nat.mod_one]
  | succ n ih =>
    simp only [encU_succ, bitsVal_cons, length_encU, ih]
    rw [Nat.mod_pow_succ, Nat.testBit_eq_decide_div_mod_eq]
    rcases Nat.mod_two_eq_zero_or_one (v / 2 ^ n) with h | h <;> simp [h]; omega

theorem bitsVal_encU {n v : Nat} (h : v < 2 ^ n) : bitsVal (encU n v) = v := by
  rw [bitsVal_encU_mod, Nat.mod_eq_of_lt h]

theorem encU_mod (n m v : Nat) (h : n ≤ m) : encU n (v % 2 ^ m) = encU n v := by
  induction n with
  | zero => rfl
  | succ n ih =>
    simp only [encU_succ, Nat.testBit_mod_two_pow]
    rw [ih (by omega)]
    simp; omega

theorem encU_add_mul (n v w : Nat) : encU n (w * 2 ^ n + v) = encU n v := by
  rw [← encU_mod n n (w * 2 ^ n + v) (Nat.le_refl _), ← encU_mod n n v (Nat.le_refl _)]
  congr 1
  rw [Nat.add_comm, Nat.add_mul_mod_self_right]

theorem encU_bitsVal (l : List Bool) : encU l.length (bitsVal l) = l := by
  induction l with
  | nil => rfl
  | cons b l ih =>
    simp only [List.length_cons, encU_succ, bitsVal_cons]
    congr 1
    · have h := bitsVal_lt l
      rw [Nat.testBit_eq_decide_div_mod_eq]
      cases b
      · simp [Nat.div_eq_of_lt h]
      · simp only [Bool.toNat_true, Nat.one_mul]
        rw [Nat.add_div_left _ (Nat.two_pow_pos _), Nat.div_eq_of_lt h]; rfl
    · rw [encU_add_mul, ih]

theorem bitsVal_inj {l m : List Bool} (hl : l.length = m.length) (h : bitsVal l = bitsVal m) : l = m := by
  rw [← encU_bitsVal l, ← encU_bitsVal m, hl, h]

theorem encU_inj {n v w : Nat} (hv : v < 2 ^ n) (hw : w < 2 ^ n) (h : encU n v = encU n w) : v = w := by
  rw [← bitsVal_encU hv, ← bitsVal_encU hw, h]

theorem encU_append (m n v : Nat) : encU (m + n) v = encU m (v >>> n) ++ encU n v := by
  induction m with
  | zero => simp
  | succ m ih =>
    rw [Nat.succ_add, encU_succ, encU_succ, ih, Nat.testBit_shiftRight, Nat.add_comm n m]; rfl

theorem drop_encU (k n v : Nat) (h : k ≤ n) : (encU n v).drop k = encU (n - k) v := by
  obtain ⟨d, rfl⟩ := Nat.exists_eq_add_of_le h
  rw [encU_append, List.drop_append_of_le_length (by simp)]
  simp

theorem take_encU (k n v : Nat) (h : k ≤ n) : (encU n v).take k = encU k (v >>> (n - k)) := by
  obtain ⟨d, rfl⟩ := Nat.exists_eq_add_of_le h
  rw [encU_append, List.take_append_of_le_length (by simp)]
  simp [Nat.add_sub_cancel_left]
  rw [List.take_of_length_le]; simp

@[simp] theorem allBits_nil : allBits [] = [] := rfl
@[simp] theorem allBits_cons (b bs) : allBits (b :: bs) = encU 8 b.toNat ++ allBits bs := rfl
@[simp] theorem allBits_append (a b) : allBits (a ++ b) = allBits a ++ allBits b := by
  simp [allBits]

@[simp] theorem length_allBits (bs : List UInt8) : (allBits bs).length = 8 * bs.length := by
  induction bs with
  | nil => rfl
  | cons b bs ih => simp [ih]; omega

theorem drop_allBits (bs : List UInt8) (i : Nat) : (allBits bs).drop (8 * i) = allBits (bs.drop i) := by
  induction i generalizing bs with
  | zero => simp
  | succ i ih =>
    cases bs with
    | nil => simp
    | cons b bs =>
      rw [allBits_cons, List.drop_append, List.drop_eq_nil_of_le (by simp; omega)]
      simp only [length_encU, List.nil_append, List.drop_succ_cons]
      rw [show 8 * (i + 1) - 8 = 8 * i by omega, ih]

theorem allBits_inj {a b : List UInt8} (h : allBits a = allBits b) : a = b := by
  induction a generalizing b with
  | nil =>
    cases b with
    | nil => rfl
    | cons y ys => have := congrArg List.length h; simp at this
  | cons x xs ih =>
    cases b with
    | nil => have := congrArg List.length h; simp at this
    | cons y ys =>
      rw [allBits_cons, allBits_cons] at h
      have h2 := List.append_inj h (by simp)
      rw [ih h2.2]
      congr 1
      have := encU_inj (n := 8) x.toNat_lt y.toNat_lt h2.1
      exact UInt8.toNat_inj.mp this

end H264
