import Verif.Props.Converter

/-! # C88: names of arrays, character by character

`C88_buffer` and `C88_other` are stated with the character classes of the model.  Here the classes are written out. -/

namespace H264.Props

open H264 H264.Conv

/-- The characters of a name in C++ (ASCII). -/
def NameChar (c : Char) : Prop := ('a' ≤ c ∧ c ≤ 'z') ∨ ('A' ≤ c ∧ c ≤ 'Z') ∨ ('0' ≤ c ∧ c ≤ '9') ∨ c = '_'

/-- Blanks and line breaks in a unit test. -/
def LayoutChar (c : Char) : Prop := c = ' ' ∨ c = '\t' ∨ c = '\n' ∨ c = '\r'

theorem isWord_iff (c : Char) : isWord c = true ↔ NameChar c := by
  have h : ∀ d : Char, c = d ↔ c.toNat = d.toNat := fun d => ⟨fun e => by rw [e], fun e => Char.toNat_inj.mp e⟩
  have hle : ∀ a b : Char, a ≤ b ↔ a.toNat ≤ b.toNat := fun a b => Iff.rfl
  have hge : ∀ a b : UInt32, a ≤ b ↔ a.toNat ≤ b.toNat := fun a b => Iff.rfl
  unfold isWord NameChar Char.isAlphanum Char.isAlpha Char.isUpper Char.isLower Char.isDigit
  simp only [Bool.or_eq_true, Bool.and_eq_true, decide_eq_true_eq, beq_iff_eq, h, hle, ge_iff_le, hge]
  have e : c.val.toNat = c.toNat := rfl
  simp only [e]
  have : 'a'.toNat = 97 ∧ 'z'.toNat = 122 ∧ 'A'.toNat = 65 ∧ 'Z'.toNat = 90 ∧ '0'.toNat = 48 ∧ '9'.toNat = 57 ∧ '_'.toNat = 95 := by decide
  have : 'a'.val.toNat = 97 ∧ 'z'.val.toNat = 122 ∧ 'A'.val.toNat = 65 ∧ 'Z'.val.toNat = 90 ∧ '0'.val.toNat = 48 ∧ '9'.val.toNat = 57 := by
    decide
  omega

theorem isWord_false {c : Char} (h : ¬ NameChar c) : isWord c = false := by
  rw [← Bool.not_eq_true, isWord_iff]
  exact h

theorem layout_space {c : Char} (h : LayoutChar c) : isSpace c = true := by
  rcases h with rfl | rfl | rfl | rfl <;> decide

/-- C88: where the code passes an array and its size, whatever letters, digits and underscores the name of the array has and wherever the
line breaks are, the fuzzer passes its input instead. -/
theorem C88_names {p w ws q : List Char} (hw : ∀ c ∈ w, NameChar c) (hne : w ≠ []) (hs : ∀ c ∈ ws, LayoutChar c) (hp : ',' ∉ p)
    (hl : ∀ c, p.getLast? = some c → ¬ NameChar c) :
    subst false 0 (p ++ (w ++ [','] ++ ws ++ "arraysize(".toList ++ w ++ [')']) ++ q) = p ++ "data, size".toList ++ subst false 0 q := by
  have := C88_buffer (w := w) (ws := ws) (q := q) (fun c hc => (isWord_iff c).mpr (hw c hc)) hne (fun c hc => layout_space (hs c hc))
    (p := p) (b := false) hp (fun _ => rfl) (fun c hc => isWord_false (hl c hc))
  have e : bufferArgs w ws = w ++ [','] ++ ws ++ "arraysize(".toList ++ w ++ [')'] := by simp [bufferArgs]
  rw [← e]
  exact this

/-- C88: code without `arraysize(` in front of a name is not changed, and neither is code without comma. -/
theorem C88_names_other {t : List Char} (h : ∀ w, w ≠ [] → (∀ c ∈ w, NameChar c) → ¬ (',' ∈ t ∧ "arraysize(".toList ++ w ++ [')'] <:+: t)) :
    subst false 0 t = t := by
  refine C88_other ?_
  intro p w ws q h1 h2 _ _ _ e
  refine h w h1 (fun c hc => (isWord_iff c).mp (h2 c hc)) ⟨?_, p ++ w ++ [','] ++ ws, q, ?_⟩
  · rw [e]; simp [bufferArgs]
  · rw [e]; simp [bufferArgs]

/-- A name with an underscore, a digit and letters of both kinds, with a line break. -/
example : subst false 0 "Parse(my_Buffer2,\n  arraysize(my_Buffer2));".toList = "Parse(data, size);".toList := by decide +kernel

example : (∀ c ∈ "my_Buffer2".toList, NameChar c) ∧ (∀ c ∈ "\n  ".toList, LayoutChar c) ∧ ¬ NameChar '(' := by
  unfold NameChar LayoutChar
  decide +kernel

/-- Another array of which the name is only the end: not changed. -/
example : subst false 0 "Parse(my_buffer, arraysize(buffer));".toList = "Parse(my_buffer, arraysize(buffer));".toList := by decide +kernel

end H264.Props
