import Verif.Spec.Bytes

/-
`UnescapeRbsp` as a structural function, and its relation to the specification.
-/

namespace H264
open Spec

/-- What `UnescapeRbsp` computes, as a structural function. -/
def strip : List UInt8 → List UInt8
  | [] => []
  | [a] => [a]
  | [a, b] => [a, b]
  | a :: b :: c :: r => if a = 0 ∧ b = 0 ∧ c = 3 then a :: b :: strip r else a :: strip (b :: c :: r)

theorem strip_hit (r : List UInt8) : strip (0 :: 0 :: 3 :: r) = 0 :: 0 :: strip r := by
  simp [strip]
theorem strip_miss {a : UInt8} {r : List UInt8} (h : ¬ (a = 0 ∧ ∃ t, r = 0 :: 3 :: t)) : strip (a :: r) = a :: strip r := by
  match r with
  | [] => simp [strip]
  | [b] => simp [strip]
  | b :: c :: t =>
    rw [strip, if_neg]
    rintro ⟨h1, h2, h3⟩
    exact h ⟨h1, t, by rw [h2, h3]⟩
theorem strip_ne {a : UInt8} (h : a ≠ 0) (r : List UInt8) : strip (a :: r) = a :: strip r :=
  strip_miss (fun k => h k.1)

theorem ofNat_toNat (a : UInt8) : UInt8.ofNat a.toNat = a := by simp
theorem toNat_eq_zero {a : UInt8} : a.toNat = 0 ↔ a = 0 := by
  constructor
  · intro h; rw [← ofNat_toNat a, h]; rfl
  · rintro rfl; rfl
theorem toNat_eq_three {a : UInt8} : a.toNat = 3 ↔ a = 3 := by
  constructor
  · intro h; rw [← ofNat_toNat a, h]; rfl
  · rintro rfl; rfl

theorem load_some {data : List UInt8} {i : Nat} {a : UInt8} (h : data[i]? = some a) : load data i = .val a.toNat := by
  simp [load, h]
theorem load_none {data : List UInt8} {i : Nat} (h : data.length ≤ i) : load data i = .bad .oob := by
  simp [load, List.getElem?_eq_none h]

/-- Reading inside the array, the loop computes `strip`. -/
theorem unescapeLoop_eq (data : List UInt8) (off len : Nat) (hlen : len < 2 ^ 64) :
    ∀ (f i : Nat) (out l : List UInt8), len - i ≤ f → i ≤ len → l.length = len - i →
      (∀ k, k < l.length → data[off + (i + k)]? = l[k]?) →
      unescapeLoop data off len f i out = .val (out ++ strip l) := by
  intro f
  induction f with
  | zero =>
    intro i out l hf hi hl _
    have : l = [] := List.eq_nil_of_length_eq_zero (by omega)
    subst this
    rw [unescapeLoop, if_neg (by omega)]
    simp [strip]
  | succ f ih =>
    intro i out l hf hi hl hd
    rw [unescapeLoop]
    by_cases hlt : i < len
    · rw [if_pos hlt]
      rw [sub64_eq (by omega) hlen]
      match l, hl with
      | [], hl => simp at hl; omega
      | a :: r, hl =>
        have ha : load data (off + i) = .val a.toNat := load_some (by have := hd 0 (by simp); simpa using this)
        have hstep : ¬ (a = 0 ∧ ∃ t, r = 0 :: 3 :: t) →
            (do
              let a ← load data (off + i)
              unescapeLoop data off len f (i + 1) (out ++ [UInt8.ofNat a])) = Res.val (out ++ strip (a :: r)) := by
          intro hm
          rw [ha, Res.val_bind, strip_miss hm, ih (i + 1) _ r (by omega) (by omega) (by simp at hl ⊢; omega)]
          · rw [ofNat_toNat]; simp
          · intro k hk
            have := hd (k + 1) (by simp; omega)
            rw [List.getElem?_cons_succ] at this
            rw [← this]; congr 1; omega
        by_cases h3 : len - i ≥ 3
        · rw [if_pos h3, ha, Res.val_bind]
          by_cases a0 : a = 0
          · subst a0
            rw [if_pos (by decide)]
            match r, hl with
            | [], hl => simp at hl; omega
            | [b], hl => simp at hl; omega
            | b :: c :: t, hl =>
              have hb : load data (off + (i + 1)) = .val b.toNat :=
                load_some (by have := hd 1 (by simp); simpa using this)
              have hc : load data (off + (i + 2)) = .val c.toNat :=
                load_some (by have := hd 2 (by simp); simpa using this)
              rw [hb, Res.val_bind]
              by_cases b0 : b = 0
              · subst b0
                rw [if_pos (by decide), hc, Res.val_bind]
                by_cases c3 : c = 3
                · subst c3
                  simp only [Res.pure_eq, Res.val_bind]
                  rw [if_pos (by decide), strip_hit,
                    ih (i + 1 + 1 + 1) _ t (by omega) (by omega) (by simp at hl ⊢; omega)]
                  · rw [ofNat_toNat]; simp
                  · intro k hk
                    have := hd (k + 3) (by simp; omega)
                    simp only [List.getElem?_cons_succ] at this
                    rw [← this]; congr 1; omega
                · have : ¬ c.toNat = 3 := fun h => c3 (toNat_eq_three.mp h)
                  simp only [Res.pure_eq, Res.val_bind, this, decide_false]
                  rw [ha] at hstep
                  exact hstep (by rintro ⟨_, t', h⟩; injection h with _ h; injection h with h; exact c3 h)
              · have : ¬ b.toNat = 0 := fun h => b0 (toNat_eq_zero.mp h)
                rw [if_neg this]
                simp only [Res.pure_eq, Res.val_bind]
                rw [ha] at hstep
                exact hstep (by rintro ⟨_, t', h⟩; injection h with h; exact b0 h)
          · have : ¬ a.toNat = 0 := fun h => a0 (toNat_eq_zero.mp h)
            rw [if_neg this]
            simp only [Res.pure_eq, Res.val_bind]
            rw [ha] at hstep
            exact hstep (fun k => a0 k.1)
        · rw [if_neg h3]
          simp only [Res.pure_eq, Res.val_bind]
          exact hstep (by rintro ⟨_, t, rfl⟩; simp at hl; omega)
    · rw [if_neg hlt]
      have : l = [] := List.eq_nil_of_length_eq_zero (by omega)
      subst this
      simp [strip]

/-- Inside the array, `UnescapeRbsp` computes `strip` of the bytes it is given. -/
theorem unescapeRbsp_eq {data : List UInt8} {off len : Nat} (h : off + len ≤ data.length) (hl : data.length ≤ maxVector) :
    unescapeRbsp data off len = .val (strip ((data.drop off).take len)) := by
  have hm : maxVector < 2 ^ 64 := by decide
  unfold unescapeRbsp
  rw [if_neg (by omega)]
  rw [unescapeLoop_eq data off len (by omega) len 0 [] ((data.drop off).take len) (by omega) (by omega)
    (by simp; omega)]
  · simp
  · intro k hk
    simp at hk
    rw [List.getElem?_take_of_lt (by omega), List.getElem?_drop]
    congr 1; omega

/-! ### Round trip -/

/-- `z` zero bytes. -/
def zs (z : Nat) : List UInt8 := List.replicate z 0

/-- The zero count of the escaper at the end. -/
def pend (z : Nat) : List UInt8 → Nat
  | [] => z
  | b :: r =>
    if z = 2 ∧ b.toNat ≤ 3 then pend (if b.toNat = 0 then 1 else 0) r
    else pend (if b.toNat = 0 then z + 1 else 0) r

theorem strip_escapeFrom (t : List UInt8) (ht : t = [] ∨ t = [3]) : ∀ (r : List UInt8) (z : Nat), z ≤ 2 →
    strip (zs z ++ (escapeFrom z r ++ t)) = zs z ++ (r ++ (if pend z r = 2 then [] else t)) := by
  intro r
  induction r with
  | nil =>
    intro z hz
    have : z = 0 ∨ z = 1 ∨ z = 2 := by omega
    rcases ht with rfl | rfl <;> rcases this with rfl | rfl | rfl <;> simp [escapeFrom, pend, zs] <;> decide
  | cons b r ih =>
    intro z hz
    have : z = 0 ∨ z = 1 ∨ z = 2 := by omega
    by_cases b0 : b = 0
    · subst b0
      rcases this with rfl | rfl | rfl
      · exact ih 1 (by omega)
      · exact ih 2 (by omega)
      · have := ih 1 (by omega)
        simp only [zs, List.replicate] at this ⊢
        simp only [escapeFrom, pend, show ((0 : UInt8).toNat ≤ 3) = True by decide, and_self, if_true,
          show ((0 : UInt8).toNat = 0) = True by decide, List.cons_append, List.nil_append] at this ⊢
        rw [strip_hit, this]
    · have hb : ¬ b.toNat = 0 := fun h => b0 (toNat_eq_zero.mp h)
      have i0 := ih 0 (by omega)
      simp only [zs, List.replicate, List.nil_append] at i0
      rcases this with rfl | rfl | rfl
      · simp only [zs, List.replicate, List.nil_append, escapeFrom, pend, hb, if_false, List.cons_append,
          show (0 = 2) = False by decide, false_and]
        rw [strip_ne b0, i0]
      · simp only [zs, List.replicate, List.nil_append, escapeFrom, pend, hb, if_false, List.cons_append,
          show (1 = 2) = False by decide, false_and]
        rw [strip_miss (by rintro ⟨_, t', h⟩; injection h with h; exact b0 h), strip_ne b0, i0]
      · by_cases b3 : b.toNat ≤ 3
        · simp only [zs, List.replicate, List.nil_append, escapeFrom, pend, hb, if_false, List.cons_append, b3, and_self,
            if_true]
          rw [strip_hit, strip_ne b0, i0]
        · simp only [zs, List.replicate, List.nil_append, escapeFrom, pend, hb, if_false, List.cons_append, b3, and_false]
          have hne : b ≠ 3 := by rintro rfl; exact b3 (by decide)
          rw [strip_miss (by rintro ⟨_, t', h⟩; injection h with _ h; injection h with h; exact hne h),
            strip_miss (by rintro ⟨_, t', h⟩; injection h with h; exact b0 h), strip_ne b0, i0]

theorem strip_escape (r : List UInt8) : strip (escape r) = r := by
  have := strip_escapeFrom [] (Or.inl rfl) r 0 (by omega)
  simpa [zs, escape] using this

theorem trailingZeros_append_ne (l : List UInt8) {b : UInt8} (h : b ≠ 0) : trailingZeros (l ++ [b]) = 0 := by
  simp [trailingZeros, h]
theorem trailingZeros_append_zero (l : List UInt8) : trailingZeros (l ++ [0]) = trailingZeros l + 1 := by
  simp [trailingZeros]

theorem pend_append (r : List UInt8) (b : UInt8) : ∀ z, z ≤ 2 → pend z (r ++ [b]) =
    if b = 0 then (if pend z r = 2 then 1 else pend z r + 1) else 0 := by
  induction r with
  | nil =>
    intro z hz
    simp only [List.nil_append, pend, toNat_eq_zero]
    by_cases b0 : b = 0
    · subst b0
      by_cases h2 : z = 2
      · subst h2; decide
      · rw [if_neg (by simp [h2])]; simp [h2]
    · simp [b0]
  | cons a r ih =>
    intro z hz
    simp only [List.cons_append, pend]
    split
    · exact ih _ (by split <;> omega)
    · rename_i h
      refine ih _ ?_
      split
      · rename_i h0
        have : z ≠ 2 := fun h2 => h ⟨h2, by omega⟩
        omega
      · omega

theorem pend_trailing (r : List UInt8) :
    (trailingZeros r = 0 → pend 0 r = 0) ∧ (trailingZeros r ≠ 0 → pend 0 r = if trailingZeros r % 2 = 0 then 2 else 1) := by
  induction h : r.length generalizing r with
  | zero =>
    have : r = [] := List.eq_nil_of_length_eq_zero h
    subst this; simp [trailingZeros, pend]
  | succ n ih =>
    rcases List.eq_nil_or_concat r with rfl | ⟨l, b, rfl⟩
    · simp at h
    · rw [List.concat_eq_append] at h ⊢
      have := ih l (by simp at h; omega)
      rw [pend_append l b 0 (by omega)]
      by_cases b0 : b = 0
      · subst b0
        rw [trailingZeros_append_zero]
        refine ⟨fun h => by omega, fun _ => ?_⟩
        rw [if_pos rfl]
        by_cases t0 : trailingZeros l = 0
        · rw [this.1 t0, t0]; simp
        · rw [this.2 t0]
          split <;> split <;> first | omega | simp_all <;> omega
      · rw [trailingZeros_append_ne l b0]; simp [b0]

theorem getLast?_zero_iff (r : List UInt8) : r.getLast? = some 0 ↔ trailingZeros r ≠ 0 := by
  rcases List.eq_nil_or_concat r with rfl | ⟨l, b, rfl⟩
  · simp [trailingZeros]
  · rw [List.concat_eq_append]
    by_cases b0 : b = 0
    · subst b0; rw [trailingZeros_append_zero]; simp
    · rw [trailingZeros_append_ne l b0]; simp [b0]

/-! ### The escaped form contains no start code -/

theorem escapeFrom_no (b : UInt8) (hb : b.toNat ≤ 2) : ∀ (r : List UInt8) (z : Nat), z ≤ 2 → ∀ j,
    ¬ at3 (zs z ++ escapeFrom z r) j 0 0 b := by
  intro r
  induction r with
  | nil =>
    intro z hz j
    rintro ⟨h1, h2, h3⟩
    have := (List.getElem?_eq_some_iff.mp h3).1
    simp [escapeFrom, zs] at this
    omega
  | cons a r ih =>
    intro z hz j
    have hz' : z = 0 ∨ z = 1 ∨ z = 2 := by omega
    by_cases a0 : a = 0
    · subst a0
      rcases hz' with rfl | rfl | rfl
      · exact ih 1 (by omega) j
      · exact ih 2 (by omega) j
      · have := ih 1 (by omega)
        simp only [zs, List.replicate, escapeFrom, show ((0 : UInt8).toNat ≤ 3) = True by decide, and_self, if_true,
          show ((0 : UInt8).toNat = 0) = True by decide, List.cons_append, List.nil_append] at this ⊢
        rintro ⟨h1, h2, h3⟩
        match j with
        | 0 => simp at h3; subst h3; exact absurd hb (by decide)
        | 1 => simp at h2
        | 2 => simp at h1
        | k + 3 => exact this k ⟨by simpa using h1, by simpa using h2, by simpa using h3⟩
    · have ha : ¬ a.toNat = 0 := fun h => a0 (toNat_eq_zero.mp h)
      have i0 := ih 0 (by omega)
      simp only [zs, List.replicate, List.nil_append] at i0
      rcases hz' with rfl | rfl | rfl
      · simp only [zs, List.replicate, List.nil_append, escapeFrom, ha, if_false,
          show (0 = 2) = False by decide, false_and]
        rintro ⟨h1, h2, h3⟩
        match j with
        | 0 => simp at h1; exact a0 h1
        | k + 1 => exact i0 k ⟨by simpa using h1, by simpa using h2, by simpa using h3⟩
      · simp only [zs, List.replicate, List.nil_append, escapeFrom, ha, if_false, List.cons_append,
          show (1 = 2) = False by decide, false_and]
        rintro ⟨h1, h2, h3⟩
        match j with
        | 0 => simp at h2; exact a0 h2
        | 1 => simp at h1; exact a0 h1
        | k + 2 => exact i0 k ⟨by simpa using h1, by simpa using h2, by simpa using h3⟩
      · by_cases b3 : a.toNat ≤ 3
        · simp only [zs, List.replicate, List.nil_append, escapeFrom, ha, if_false, List.cons_append, b3, and_self,
            if_true]
          rintro ⟨h1, h2, h3⟩
          match j with
          | 0 => simp at h3; subst h3; exact absurd hb (by decide)
          | 1 => simp at h2
          | 2 => simp at h1
          | 3 => simp at h1; exact a0 h1
          | k + 4 => exact i0 k ⟨by simpa using h1, by simpa using h2, by simpa using h3⟩
        · simp only [zs, List.replicate, List.nil_append, escapeFrom, ha, if_false, List.cons_append, b3, and_false]
          rintro ⟨h1, h2, h3⟩
          match j with
          | 0 => simp at h3; subst h3; omega
          | 1 => simp at h2; exact a0 h2
          | 2 => simp at h1; exact a0 h1
          | k + 3 => exact i0 k ⟨by simpa using h1, by simpa using h2, by simpa using h3⟩

/-! ### Exactly the emulation prevention bytes are removed -/

theorem strip_scan (l : List UInt8) : ∀ (n k : Nat), l.length - k = n → k ≤ l.length →
    (∀ j, isEmulationByte l j → j < k ∨ k + 2 ≤ j) →
    strip (l.drop k) = ((List.range' k n).filter (fun j => ¬ isEmulationByte l j)).filterMap (fun j => l[j]?) := by
  intro n
  induction n using Nat.strongRecOn with
  | _ n ih =>
    intro k hn hk hs
    match n, hn with
    | 0, hn => rw [List.drop_eq_nil_of_le (by omega)]; simp [strip]
    | m + 1, hn =>
      have hlt : k < l.length := by omega
      have hk0 : ¬ isEmulationByte l k := fun h => by have := hs k h; omega
      have dk := List.drop_eq_getElem_cons hlt
      by_cases hit : isEmulationByte l (k + 2)
      · have ⟨_, h1, h2, h3⟩ := hit
        rw [show k + 2 - 2 = k by omega] at h1
        rw [show k + 2 - 1 = k + 1 by omega] at h2
        have l3 := (List.getElem?_eq_some_iff.mp h3).1
        have hk1 : ¬ isEmulationByte l (k + 1) := fun h => by have := hs (k + 1) h; omega
        obtain ⟨m', rfl⟩ : ∃ m', m = m' + 2 := ⟨m - 2, by omega⟩
        have e0 : l.drop k = 0 :: 0 :: 3 :: l.drop (k + 3) := by
          rw [dk, List.drop_eq_getElem_cons (by omega : k + 1 < l.length),
            List.drop_eq_getElem_cons (by omega : k + 1 + 1 < l.length)]
          rw [(List.getElem?_eq_some_iff.mp h1).2, (List.getElem?_eq_some_iff.mp h2).2]
          have := (List.getElem?_eq_some_iff.mp h3).2
          simp only [show k + 1 + 1 = k + 2 by omega]
          rw [this]
        rw [e0, strip_hit, ih m' (by omega) (k + 3) (by omega) (by omega)]
        · simp only [List.range'_succ, List.filter_cons, hk0, hk1, show k + 1 + 1 = k + 2 by omega, hit, not_true_eq_false,
            not_false_eq_true, decide_true, decide_false, if_true, Bool.false_eq_true, if_false, List.filterMap_cons, h1, h2]
        · intro j hj
          rcases hs j hj with h | h
          · omega
          · have ⟨_, g1, g2, g3⟩ := hj
            by_cases h4 : j = k + 3
            · subst h4; rw [show k + 3 - 1 = k + 2 by omega, h3] at g2; simp at g2
            · by_cases h5 : j = k + 4
              · subst h5; rw [show k + 4 - 2 = k + 2 by omega, h3] at g1; simp at g1
              · omega
      · have ek : l[k]? = some l[k] := List.getElem?_eq_getElem hlt
        rw [dk, strip_miss, ih m (by omega) (k + 1) (by omega) (by omega)]
        · simp only [List.range'_succ, List.filter_cons, hk0, not_false_eq_true, decide_true, if_true, List.filterMap_cons,
            ek]
        · intro j hj
          rcases hs j hj with h | h
          · omega
          · by_cases h4 : j = k + 2
            · subst h4; exact absurd hj hit
            · omega
        · rintro ⟨h0, t, ht⟩
          refine hit ⟨by omega, ?_, ?_, ?_⟩
          · rw [show k + 2 - 2 = k by omega, ek, h0]
          · have := congrArg (fun x => x[0]?) ht
            simp only [List.getElem?_drop] at this
            rw [show k + 2 - 1 = k + 1 + 0 by omega, this]; rfl
          · have := congrArg (fun x => x[1]?) ht
            simp only [List.getElem?_drop] at this
            rw [show k + 2 = k + 1 + 1 by omega, this]; rfl

theorem strip_eq (l : List UInt8) : strip l = withoutEmulation l := by
  have := strip_scan l l.length 0 (by omega) (by omega) (fun j h => Or.inr (by have := h.1; omega))
  rw [List.drop_zero] at this
  rw [this, withoutEmulation, List.range_eq_range']

theorem strip_length (l : List UInt8) : (strip l).length ≤ l.length := by
  rw [strip_eq, withoutEmulation]
  refine Nat.le_trans (List.length_filterMap_le _ _) (Nat.le_trans (List.length_filter_le _ _) (by simp))

end H264
