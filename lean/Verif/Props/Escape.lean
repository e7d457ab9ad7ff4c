import Verif.EscapeLemmas

/-
Properties C11 and C12: UnescapeRbsp.
-/

namespace H264.Props
open H264 H264.Spec

/-- C11: unescaping the emulation-prevented form of any RBSP gives the RBSP back. -/
theorem C11_unescape_escape (rbsp : List UInt8) (h : (escape rbsp).length ≤ maxVector) :
    unescapeRbsp (escape rbsp) 0 (escape rbsp).length = .val rbsp := by
  rw [unescapeRbsp_eq (by omega) h]
  simp [strip_escape]

/-- C11, with the final 0x03 that clause 7.4.1 appends to an RBSP ending in a zero byte: it is removed exactly if the RBSP
ends in an even number of zero bytes, as one ending in cabac_zero_words does. -/
theorem C11_unescape_escapeNal (rbsp : List UInt8) (h : (escapeNal rbsp).length ≤ maxVector) :
    unescapeRbsp (escapeNal rbsp) 0 (escapeNal rbsp).length =
      .val (if trailingZeros rbsp % 2 = 0 then rbsp else rbsp ++ [3]) := by
  rw [unescapeRbsp_eq (by omega) h]
  rw [List.drop_zero, List.take_length]
  unfold escapeNal
  have key := strip_escapeFrom [3] (Or.inr rfl) rbsp 0 (by omega)
  simp only [zs, List.replicate, List.nil_append] at key
  by_cases hz : trailingZeros rbsp = 0
  · rw [if_neg (fun k => (getLast?_zero_iff rbsp).mp k hz), strip_escape, hz]; rfl
  · rw [if_pos ((getLast?_zero_iff rbsp).mpr hz), escape, key, (pend_trailing rbsp).2 hz]
    split <;> simp

/-- C11: the emulation-prevented form indeed contains no start code prefix, and no 00 00 00 or 00 00 02. -/
theorem C11_escape_no_start_code (rbsp : List UInt8) (b : UInt8) (hb : b.toNat ≤ 2) (j : Nat) :
    ¬ at3 (escape rbsp) j 0 0 b := by
  have := escapeFrom_no b hb rbsp 0 (by omega) j
  simpa [zs, escape] using this

/-- C11: different RBSPs have different emulation-prevented forms. -/
theorem C11_escape_injective {a b : List UInt8} (h : escape a = escape b) : a = b := by
  rw [← strip_escape a, h, strip_escape]

/-- C12: on the `len` bytes at `data + off` inside the array, UnescapeRbsp returns these bytes without exactly those that are
0x03 after two zero bytes.  It reads nothing else: a read outside the array would be the outcome `Bad.oob`, and the answer
depends on these `len` bytes only. -/
theorem C12_unescape_exact {data : List UInt8} {off len : Nat} (h : off + len ≤ data.length) (hl : data.length ≤ maxVector) :
    unescapeRbsp data off len = .val (withoutEmulation ((data.drop off).take len)) := by
  rw [unescapeRbsp_eq h hl, strip_eq]

/-- C12: the output is not longer than the input. -/
theorem C12_not_longer (l : List UInt8) : (withoutEmulation l).length ≤ l.length := by
  rw [← strip_eq]; exact strip_length l

/-- C12: without 00 00 03 in it, the input is returned as it is. -/
theorem C12_identity {l : List UInt8} (hl : l.length ≤ maxVector) (h : ∀ j, ¬ at3 l j 0 0 3) :
    unescapeRbsp l 0 l.length = .val l := by
  rw [C12_unescape_exact (by omega) hl, List.drop_zero, List.take_length, withoutEmulation]
  have : ∀ j, ¬ isEmulationByte l j := by
    rintro j ⟨h2, h0, h1, h3⟩
    refine h (j - 2) ⟨h0, ?_, ?_⟩
    · rw [show j - 2 + 1 = j - 1 by omega]; exact h1
    · rw [show j - 2 + 2 = j by omega]; exact h3
  rw [List.filter_eq_self.mpr (by intro j _; simp [this j])]
  congr 1
  apply List.ext_getElem?
  intro i
  clear this h hl
  have : ∀ (n : Nat) (hn : n ≤ l.length), (List.range n).filterMap (fun j => l[j]?) = l.take n := by
    intro n
    induction n with
    | zero => simp
    | succ n ih =>
      intro hn
      rw [List.range_succ, List.filterMap_append, ih (by omega)]
      simp only [List.filterMap_cons, List.getElem?_eq_getElem (show n < l.length by omega), List.filterMap_nil]
      rw [List.take_append_getElem]
  rw [this l.length (by omega), List.take_length]

/-- C12: given a range that leaves the array, UnescapeRbsp does read outside it (the caller must not do that). -/
theorem C12_outside {data : List UInt8} {off len : Nat} (h : data.length < off + len) (hl : len ≤ maxVector) (h0 : 0 < len) :
    unescapeRbsp data off len = .bad .oob := by
  have hm : maxVector < 2 ^ 64 := by decide
  unfold unescapeRbsp
  rw [if_neg (by omega)]
  have key : ∀ (f i : Nat) (out : List UInt8), i < len → len - i ≤ f → unescapeLoop data off len f i out = .bad .oob := by
    intro f
    induction f with
    | zero => intro i out h1 h2; omega
    | succ f ih =>
      intro i out h1 h2
      rw [unescapeLoop, if_pos h1, sub64_eq (by omega) (by omega)]
      by_cases hin : off + i < data.length
      · have r1 : ∀ a out, i + 1 < len → (do
            let a ← Res.val a
            unescapeLoop data off len f (i + 1) (out ++ [UInt8.ofNat a])) = (.bad .oob : Res (List UInt8)) := by
          intro a out h; exact ih _ _ h (by omega)
        rw [load_eq hin]
        by_cases h3 : len - i ≥ 3
        · rw [if_pos h3, Res.val_bind]
          split
          · by_cases h4 : off + (i + 1) < data.length
            · rw [load_eq h4, Res.val_bind]
              split
              · by_cases h5 : off + (i + 2) < data.length
                · rw [load_eq h5, Res.val_bind, Res.pure_eq, Res.val_bind]
                  dsimp only
                  split
                  · rw [Res.val_bind]
                    exact ih _ _ (by omega) (by omega)
                  · exact r1 _ _ (by omega)
                · rw [load_none (by omega)]; rfl
              · exact r1 _ _ (by omega)
            · rw [load_none (by omega)]; rfl
          · exact r1 _ _ (by omega)
        · rw [if_neg h3]
          exact r1 _ _ (by omega)
      · rw [load_none (by omega)]
        split
        · rfl
        · rfl
  exact key len 0 [] h0 (by omega)

/-- An RBSP with zero runs of several lengths, and its emulation-prevented form. -/
example : escape [0, 0, 0, 0, 1, 0, 0, 3, 0, 0, 4] = [0, 0, 3, 0, 0, 3, 1, 0, 0, 3, 3, 0, 0, 4] := by decide +kernel
example : unescapeRbsp [0, 0, 3, 0, 0, 3, 1, 0, 0, 3, 3, 0, 0, 4] 0 14 = .val [0, 0, 0, 0, 1, 0, 0, 3, 0, 0, 4] :=
  C11_unescape_escape [0, 0, 0, 0, 1, 0, 0, 3, 0, 0, 4] (by decide)
/-- A cabac_zero_word at the end comes back; a single zero byte at the end (which the standard excludes) would not. -/
example : escapeNal [0x80, 0, 0] = [0x80, 0, 0, 3] ∧ trailingZeros [0x80, 0, 0] % 2 = 0 := by decide +kernel
example : escapeNal [0x80, 0] = [0x80, 0, 3] ∧ trailingZeros [0x80, 0] % 2 ≠ 0 := by decide +kernel
/-- A range in the middle of an array. -/
example : unescapeRbsp [9, 0, 0, 3, 3, 0, 0, 3] 1 4 = .val [0, 0, 3] := by
  rw [C12_unescape_exact (by decide) (by decide)]; decide +kernel
example : ∀ j, ¬ at3 [0, 0, 2, 3] j 0 0 3 := by
  rintro j ⟨h1, h2, h3⟩
  match j with
  | 0 => simp at h3
  | 1 => simp at h2
  | 2 => simp at h1
  | 3 => simp at h1
  | k + 4 => simp at h1

end H264.Props
