import Mathlib.Data.List.Forall2
import Verif.Model.SummaryScript
import Verif.DpbText

/-
What the searches of the summarising script find in a dump.
-/

namespace H264.Summary
open H264.Shown H264.Script

/-! ### What there is to be found -/

/-- A field with its value, or a name before a brace. -/
inductive Tok where
  | field (name : String) (value : List Char)
  | opens (name : String)

mutual
def toks : Item → List Tok
  | .field name value => [.field name value]
  | .values name _ => [.opens name]
  | .rows name _ => [.opens name]
  | .group name items => .opens name :: toksIn items
  | .joined name items => .opens name :: toksIn items
  | .blank => []
def toksIn : List Item → List Tok
  | [] => []
  | i :: is => toks i ++ toksIn is
end

/-- The key is at the end of a name, and a word begins there. -/
def ends (key : List Char) : Bool → List Char → Bool
  | _, [] => false
  | prev, c :: t => (!prev && (c :: t == key)) || ends key (isWord c) t

/-- The values of the fields with such a name. -/
def vals (key : List Char) (ts : List Tok) : List (List Char) :=
  ts.filterMap fun t => match t with
    | .field name value => if ends key false name.toList then some value else none
    | .opens _ => none

/-- The number of names before a brace that end with the key. -/
def opensN (key : List Char) (ts : List Tok) : Nat :=
  ts.countP fun t => match t with
    | .field _ _ => false
    | .opens name => key.isSuffixOf name.toList

theorem vals_append (key : List Char) (a b : List Tok) : vals key (a ++ b) = vals key a ++ vals key b := by
  unfold vals; rw [List.filterMap_append]
theorem opensN_append (key : List Char) (a b : List Tok) : opensN key (a ++ b) = opensN key a + opensN key b := by
  unfold opensN; rw [List.countP_append]

/-! ### Fields -/

theorem nonplain_word {c : Char} (h : plainChar c = false) : isWord c = false := by
  simp only [plainChar, Bool.and_eq_false_iff, bne_eq_false_iff_eq] at h
  rcases h with ((rfl | rfl) | rfl) | rfl <;> decide

/-- A key of a search for a field. -/
structure FKey (key : List Char) : Prop where
  ne : key ≠ []
  word : ∀ c ∈ key, wordChar c = true

theorem aft_none {L : List Char} {p : Bool} {c : Char} {t : List Char} (h : ¬ L <+: c :: t) : afters L p (c :: t) = afters L (isWord c) t := by
  rw [afters, if_neg, List.nil_append]
  intro hx
  rw [Bool.and_eq_true, List.isPrefixOf_iff_prefix] at hx
  exact h hx.2

theorem aft_skip {key : List Char} (hk : FKey key) {p : Bool} {c : Char} (hc : plainChar c = false) (t : List Char) :
    afters (lit key []) p (c :: t) = afters (lit key []) false t := by
  rw [aft_none, nonplain_word hc]
  cases key with
  | nil => exact absurd rfl hk.ne
  | cons k key =>
    unfold lit
    rw [List.cons_append, List.cons_prefix_cons]
    rintro ⟨rfl, _⟩
    have := hk.word k (by simp)
    unfold wordChar at this
    rw [hc] at this
    simp at this

theorem aft_brk {key : List Char} (hk : FKey key) {p : Bool} {r : List Char} (hr : Brk r) :
    afters (lit key []) p r = afters (lit key []) false r := by
  cases r with
  | nil => rfl
  | cons c t =>
    have hc := hr c (by simp)
    rw [aft_skip hk hc, aft_skip hk hc]

theorem quiet_tail {c : Char} {u : List Char} (h : quiet (c :: u) = true) : quiet u = true := by
  cases u with
  | nil => rfl
  | cons d u =>
    rw [quiet, Bool.and_eq_true] at h
    exact h.2

theorem aft_quiet {key : List Char} (hk : FKey key) {p : Bool} {u r : List Char} (hq : quiet u = true) (hr : Brk r) :
    afters (lit key []) p (u ++ r) = afters (lit key []) false r := by
  induction u generalizing p with
  | nil => exact aft_brk hk hr
  | cons c u ih =>
    have hn := not_prefix_quiet (key := key) (ext := []) hk.word hq hr (by simp)
    rw [List.cons_append] at hn ⊢
    rw [aft_none hn, ih (quiet_tail hq)]

theorem ends_length {key : List Char} {p : Bool} {s : List Char} (h : ends key p s = true) : key.length ≤ s.length := by
  induction s generalizing p with
  | nil => cases h
  | cons c s ih =>
    rw [ends, Bool.or_eq_true, Bool.and_eq_true] at h
    rcases h with h | h
    · exact Nat.le_of_eq (congrArg List.length (eq_of_beq h.2)).symm
    · have := ih h
      rw [List.length_cons]; omega

theorem aft_name {key : List Char} (hk : FKey key) {p : Bool} {s w : List Char} (hs : s.all plainChar = true) :
    afters (lit key []) p (s ++ (':' :: ' ' :: w)) = (if ends key p s then [w] else []) ++ afters (lit key []) false w := by
  induction s generalizing p with
  | nil =>
    rw [List.nil_append, aft_none, aft_skip hk (by decide)]
    · rfl
    · obtain ⟨k, key', rfl⟩ : ∃ k l, key = k :: l := by
        cases key with
        | nil => exact absurd rfl hk.ne
        | cons k l => exact ⟨k, l, rfl⟩
      unfold lit
      rw [List.cons_append, List.cons_prefix_cons]
      rintro ⟨rfl, _⟩
      exact absurd (hk.word ':' (by simp)) (by decide)
  | cons c s ih =>
    have hp := prefix_name (key := key) (ext := []) (s := c :: s) (w := w) hk.word hs
    simp only [List.all_cons, Bool.and_eq_true] at hs
    have ih := ih (p := isWord c) hs.2
    by_cases he : key = c :: s
    · have hf : ends key (isWord c) s = false := by
        cases h : ends key (isWord c) s with
        | false => rfl
        | true =>
          have := ends_length h
          rw [he, List.length_cons] at this
          omega
      rw [hf] at ih
      rw [List.cons_append, afters, ih, ends, hf, Bool.or_false]
      have h1 : (lit key []).isPrefixOf (c :: (s ++ ':' :: ' ' :: w)) = true := by
        rw [List.isPrefixOf_iff_prefix, ← List.cons_append]
        exact hp.mpr ⟨he, List.nil_prefix⟩
      have h2 : (c :: (s ++ ':' :: ' ' :: w)).drop (lit key []).length = w := by
        rw [show c :: (s ++ ':' :: ' ' :: w) = lit key [] ++ w by rw [he]; simp [lit], List.drop_left]
      have h3 : (c :: s == key) = true := by rw [he]; exact beq_self_eq_true _
      rw [h1, h2, h3]
      rfl
    · rw [List.cons_append, aft_none, ih, ends]
      · have h3 : (c :: s == key) = false := by rw [beq_eq_false_iff_ne]; exact fun h => he h.symm
        rw [h3, Bool.and_false, Bool.false_or]
      · rw [← List.cons_append, hp]
        exact fun h => he h.1

theorem aft_field {key : List Char} (hk : FKey key) {p : Bool} {name : String} {value r : List Char} (hn : goodWord name.toList = true)
    (hv : ∀ w ∈ lex value, goodWord w = true) (hr : Brk r) :
    afters (lit key []) p (name.toList ++ ": ".toList ++ value ++ r) =
      (if ends key p name.toList then [value ++ r] else []) ++ afters (lit key []) false r := by
  have e : name.toList ++ ": ".toList ++ value ++ r = name.toList ++ (':' :: ' ' :: (value ++ r)) := by simp
  rw [e, aft_name hk (goodWord_plain hn), aft_quiet hk (quiet_value hv) hr]

theorem aft_newLine {key : List Char} (hk : FKey key) {p : Bool} (l : Int) (r : List Char) :
    afters (lit key []) p (newLine l ++ r) = afters (lit key []) false r := by
  unfold newLine
  split
  · exact aft_skip hk (by decide) r
  · rw [List.cons_append, aft_skip hk (by decide)]
    generalize 2 * l.toNat = n
    induction n with
    | zero => rfl
    | succ n ih => rw [List.replicate_succ, List.cons_append, aft_skip hk (by decide), ih]

/-- What follows a field: its value, and then something that is not part of it. -/
def Follows (rem value : List Char) : Prop := ∃ r, Brk r ∧ rem = value ++ r

/-- What a search finds in a text `t` followed by `u`, besides what it finds in `u`. -/
def Finds (key : List Char) (t u : List Char) (vs : List (List Char)) : Prop :=
  ∃ A, afters (lit key []) false (t ++ u) = A ++ afters (lit key []) false u ∧ List.Forall₂ Follows A vs

theorem Finds.append {key t t' u : List Char} {vs vs' : List (List Char)} (h : Finds key t (t' ++ u) vs) (h' : Finds key t' u vs') :
    Finds key (t ++ t') u (vs ++ vs') := by
  obtain ⟨A, e, ha⟩ := h
  obtain ⟨B, e', hb⟩ := h'
  refine ⟨A ++ B, ?_, List.rel_append ha hb⟩
  rw [List.append_assoc, e, e', List.append_assoc]

theorem Finds.none {key t u : List Char} (h : afters (lit key []) false (t ++ u) = afters (lit key []) false u) : Finds key t u [] :=
  ⟨[], by rw [h]; rfl, .nil⟩

theorem Finds.skip {key t u : List Char} (h : Finds key t u []) : afters (lit key []) false (t ++ u) = afters (lit key []) false u := by
  obtain ⟨A, e, ha⟩ := h
  cases ha
  exact e

theorem aft_open {key : List Char} (hk : FKey key) {name : String} (hn : goodWord name.toList = true) (r : List Char) :
    afters (lit key []) false (name.toList ++ " {".toList ++ r) = afters (lit key []) false r := by
  have e : name.toList ++ " {".toList ++ r = (name.toList ++ " ".toList) ++ ('{' :: r) := by simp
  rw [e, aft_quiet hk (quiet_append (plain_quiet hn) (by decide)) (brk_cons (by decide) _), aft_skip hk (by decide)]

theorem aft_close {key : List Char} (hk : FKey key) (l : Int) (u : List Char) :
    afters (lit key []) false (newLine l ++ ('}' :: u)) = afters (lit key []) false u := by
  rw [aft_newLine hk, aft_skip hk (by decide)]

theorem vals_field (key : List Char) (name : String) (value : List Char) :
    vals key [.field name value] = if ends key false name.toList then [value] else [] := by
  unfold vals
  rw [List.filterMap_cons, List.filterMap_nil]
  split <;> simp_all

theorem vals_opens (key : List Char) (name : String) (ts : List Tok) : vals key (.opens name :: ts) = vals key ts := rfl

mutual
theorem finds_text {key : List Char} (hk : FKey key) (l : Int) : ∀ (i : Item), Good i → ∀ (u : List Char), (isGroup i = true ∨ Brk u) →
    Finds key (text l i) u (vals key (toks i))
  | .field name value, h, u, hu => by
    rw [text, toks, vals_field]
    rw [Good] at h
    have hu := hu.resolve_left (by simp [isGroup])
    have := aft_field (p := false) hk h.1 h.2.1 hu
    refine ⟨_, this, ?_⟩
    split
    · exact .cons ⟨u, hu, rfl⟩ .nil
    · exact .nil
  | .values name vs, h, u, _ => by
    rw [text, toks, vals_opens]
    rw [Good] at h
    refine .none ?_
    have e : name.toList ++ " {".toList ++ spaced vs ++ " }".toList ++ u = (name.toList ++ (" {".toList ++ (spaced vs ++ " ".toList))) ++ ('}' :: u) := by
      simp
    rw [e, aft_quiet hk ?_ (brk_cons (by decide) _), aft_skip hk (by decide)]
    exact quiet_append (plain_quiet h.1) (quiet_append (by decide) (quiet_append (quiet_spaced fun v hv => plain_quiet (h.2 v hv)) (by decide)))
  | .rows name vs, h, u, _ => by
    rw [text, toks, vals_opens]
    rw [Good] at h
    refine .none ?_
    have e : name.toList ++ " {".toList ++ spaced (vs.map fun v => "{".toList ++ spaced v ++ " }".toList) ++ " }".toList ++ u =
        (name.toList ++ (" {".toList ++ (spaced (vs.map fun v => "{".toList ++ spaced v ++ " }".toList) ++ " ".toList))) ++ ('}' :: u) := by
      simp
    rw [e, aft_quiet hk ?_ (brk_cons (by decide) _), aft_skip hk (by decide)]
    refine quiet_append (plain_quiet h.1) (quiet_append (by decide) (quiet_append (quiet_spaced ?_) (by decide)))
    intro v hv
    rw [List.mem_map] at hv
    obtain ⟨w, hw, rfl⟩ := hv
    exact quiet_append (quiet_append (by decide) (quiet_spaced fun x hx => plain_quiet (h.2 w hw x hx))) (by decide)
  | .group name items, h, u, _ => by
    rw [text, toks, vals_opens]
    rw [Good] at h
    obtain ⟨A, e, ha⟩ := finds_lines hk (deeper l) items h.2 (newLine l ++ ('}' :: u)) (brk_newLine _ _)
    refine ⟨A, ?_, ha⟩
    have e' : name.toList ++ " {".toList ++ lines (deeper l) items ++ newLine l ++ "}".toList ++ u =
        name.toList ++ " {".toList ++ (lines (deeper l) items ++ (newLine l ++ ('}' :: u))) := by simp
    rw [e', aft_open hk h.1, e, aft_close hk]
  | .joined name items, h, u, _ => by
    rw [text, toks, vals_opens]
    rw [Good] at h
    obtain ⟨A, e, ha⟩ := finds_lines hk (deeper l) items h.2 (newLine l ++ ('}' :: u)) (brk_newLine _ _)
    refine ⟨A, ?_, ha⟩
    have e' : name.toList ++ " {".toList ++ lines (deeper l) items ++ newLine l ++ "}".toList ++ u =
        name.toList ++ " {".toList ++ (lines (deeper l) items ++ (newLine l ++ ('}' :: u))) := by simp
    rw [e', aft_open hk h.1, e, aft_close hk]
  | .blank, _, u, _ => by rw [text, toks]; exact .none rfl
theorem finds_lines {key : List Char} (hk : FKey key) (l : Int) : ∀ (is : List Item), Goods is → ∀ (u : List Char), Brk u →
    Finds key (lines l is) u (vals key (toksIn is))
  | [], _, u, _ => by rw [lines, toksIn]; exact .none rfl
  | i :: is, h, u, hu => by
    rw [Goods] at h
    have ih := finds_lines hk l is h.2.1 u hu
    have hb : isGroup i = true ∨ Brk (lines l is ++ u) := by
      cases hj : startsJoined is with
      | true => exact .inl (h.2.2 hj)
      | false =>
        right
        cases is with
        | nil => exact hu
        | cons j is => cases j <;> simp [startsJoined] at hj <;> (rw [lines, List.append_assoc, List.append_assoc]; exact brk_newLine _ _)
    have ht := (finds_text hk l i h.1 (lines l is ++ u) hb).append ih
    rw [toksIn, vals_append]
    obtain ⟨A, e, ha⟩ := ht
    refine ⟨A, ?_, ha⟩
    cases i with
    | joined name items => rw [lines]; exact e
    | _ =>
      rw [lines, List.append_assoc, List.append_assoc, aft_newLine hk, ← List.append_assoc]
      exact e
end

/-! ### Names before a brace -/

/-- The literal of a search for a name. -/
def opn (key : List Char) : List Char := key ++ " {".toList

/-- The text does not go on with the end of a literal. -/
def cut : List Char → Bool
  | [] => true
  | [c] => !plainChar c && c != '{'
  | c :: d :: _ => !plainChar c && c != '{' && !(c == ' ' && d == '{')

/-- A key of a search for a name. -/
abbrev OKey := Dpb.BrKey

theorem cnt_none {L : List Char} {c : Char} {t : List Char} (h : ¬ L <+: c :: t) : count L (c :: t) = count L t := by
  rw [count, if_neg, Nat.zero_add]
  rw [List.isPrefixOf_iff_prefix]; exact h

theorem cnt_skip {key : List Char} (hk : OKey key) {c : Char} (hc : plainChar c = false) (t : List Char) :
    count (opn key) (c :: t) = count (opn key) t := by
  refine cnt_none ?_
  cases key with
  | nil => exact absurd rfl hk.ne
  | cons k key =>
    unfold opn
    rw [List.cons_append, List.cons_prefix_cons]
    rintro ⟨rfl, _⟩
    have := hk.plain k (by simp)
    rw [hc] at this
    cases this

theorem opn_tail {key s : List Char} (hk : OKey key) (h : s <:+ opn key) (hs : s ≠ []) : cut s = false ∧ ∀ t, cut (s ++ t) = false := by
  unfold opn at h
  induction key with
  | nil => exact absurd rfl hk.ne
  | cons k key ih =>
    rw [List.cons_append, List.suffix_cons_iff] at h
    have hp := hk.plain k (by simp)
    rcases h with rfl | h
    · constructor
      · cases key <;> simp [cut, hp]
      · intro t
        cases key <;> simp [cut, hp]
    · cases key with
      | nil =>
        rw [List.nil_append, show " {".toList = [' ', '{'] by decide, List.suffix_cons_iff, List.suffix_cons_iff, List.suffix_nil] at h
        rcases h with rfl | rfl | rfl
        · exact ⟨by decide, fun t => by simp [cut]⟩
        · refine ⟨by decide, fun t => ?_⟩
          cases t <;> simp [cut]
        · exact absurd rfl hs
      | cons k2 key => exact ih ⟨by simp, fun c hc => hk.plain c (by simp [hc])⟩ h

theorem cnt_clear {key : List Char} (hk : OKey key) {u r : List Char} (hu : '{' ∉ u) (hr : cut r = true) :
    count (opn key) (u ++ r) = count (opn key) r := by
  induction u with
  | nil => rfl
  | cons c u ih =>
    rw [List.cons_append, cnt_none, ih fun hx => hu (by simp [hx])]
    rintro ⟨w, hw⟩
    rw [← List.cons_append, List.append_eq_append_iff] at hw
    rcases hw with ⟨a, h1, h2⟩ | ⟨s, h1, h2⟩
    · have : '{' ∈ opn key := by unfold opn; simp
      exact hu (by rw [h1]; simp [this])
    · have hs : s ≠ [] := by
        rintro rfl
        rw [List.append_nil] at h1
        have : '{' ∈ opn key := by unfold opn; simp
        rw [h1] at this
        exact hu this
      have := (opn_tail hk ⟨c :: u, h1.symm⟩ hs).2 w
      rw [← h2, hr] at this
      cases this

theorem cnt_open {key : List Char} (hk : OKey key) {name r : List Char} (hn : name.all plainChar = true) :
    count (opn key) (name ++ " {".toList ++ r) = (if key.isSuffixOf name then 1 else 0) + count (opn key) r := by
  have hne := hk.ne
  have e : name ++ " {".toList ++ r = name ++ (' ' :: '{' :: r) := by simp
  rw [e]
  induction name with
  | nil =>
    rw [List.nil_append, cnt_skip hk (by decide), cnt_skip hk (by decide)]
    have : key.isSuffixOf [] = false := by
      cases h : key.isSuffixOf [] with
      | false => rfl
      | true => rw [List.isSuffixOf_iff_suffix, List.suffix_nil] at h; exact absurd h hne
    rw [this]; simp
  | cons c s ih =>
    have hs := hn
    simp only [List.all_cons, Bool.and_eq_true] at hn
    have ih := ih hn.2 (by simp)
    have hpre : opn key <+: c :: (s ++ (' ' :: '{' :: r)) ↔ key = c :: s := by
      constructor
      · intro h
        have hk' := hk.plain
        have hgen : ∀ (key s : List Char), (∀ c ∈ key, plainChar c = true) → s.all plainChar = true →
            opn key <+: s ++ (' ' :: '{' :: r) → key = s := by
          intro key
          induction key with
          | nil =>
            intro s _ hs h
            cases s with
            | nil => rfl
            | cons c s =>
              unfold opn at h
              rw [List.nil_append, show " {".toList = [' ', '{'] by decide, List.cons_append, List.cons_prefix_cons] at h
              simp only [List.all_cons, Bool.and_eq_true] at hs
              rw [← h.1] at hs
              exact absurd hs.1 (by decide)
          | cons k key ihk =>
            intro s hk hs h
            cases s with
            | nil =>
              unfold opn at h
              rw [List.nil_append, List.cons_append, List.cons_prefix_cons] at h
              have := hk k (by simp)
              rw [h.1] at this
              exact absurd this (by decide)
            | cons c s =>
              unfold opn at h
              rw [List.cons_append, List.cons_append, List.cons_prefix_cons] at h
              simp only [List.all_cons, Bool.and_eq_true] at hs
              rw [h.1, ihk s (fun c hc => hk c (by simp [hc])) hs.2 h.2]
        exact hgen key (c :: s) hk' hs h
      · intro h
        rw [h]
        exact ⟨r, by simp [opn]⟩
    rw [List.cons_append, count, ih]
    by_cases he : key = c :: s
    · have h2 : key.isSuffixOf s = false := by
        cases h : key.isSuffixOf s with
        | false => rfl
        | true =>
          rw [List.isSuffixOf_iff_suffix] at h
          have := h.length_le
          rw [he, List.length_cons] at this
          omega
      rw [if_pos (List.isPrefixOf_iff_prefix.mpr (hpre.mpr he)), h2,
        if_pos (List.isSuffixOf_iff_suffix.mpr (by rw [he]; exact List.suffix_refl _))]
      simp
    · rw [if_neg (fun h => he (hpre.mp (List.isPrefixOf_iff_prefix.mp h))), Nat.zero_add]
      have : key.isSuffixOf (c :: s) = key.isSuffixOf s := by
        rw [Bool.eq_iff_iff, List.isSuffixOf_iff_suffix, List.isSuffixOf_iff_suffix, List.suffix_cons_iff]
        exact ⟨fun h => h.resolve_left he, .inr⟩
      rw [this]

theorem cut_brace (t : List Char) : cut ('}' :: t) = true := by cases t <;> simp [cut] <;> decide
theorem cut_newLine (l : Int) {u : List Char} (h : ∀ c ∈ u.head?, c ≠ '{') : cut (newLine l ++ u) = true := by
  unfold newLine
  split
  · cases u with
    | nil => decide
    | cons c u =>
      have := h c (by simp)
      simp only [List.cons_append, List.nil_append, cut, Bool.and_eq_true]
      refine ⟨by decide, ?_⟩
      simp [this]
  · rw [List.cons_append]
    generalize List.replicate (2 * l.toNat) ' ' ++ u = w
    cases w with
    | nil => decide
    | cons d w => simp [cut]; decide

theorem cnt_newLine {key : List Char} (hk : OKey key) (l : Int) (r : List Char) :
    count (opn key) (newLine l ++ r) = count (opn key) r := by
  unfold newLine
  split
  · exact cnt_skip hk (by decide) r
  · rw [List.cons_append, cnt_skip hk (by decide)]
    generalize 2 * l.toNat = n
    induction n with
    | zero => rfl
    | succ n ih => rw [List.replicate_succ, List.cons_append, cnt_skip hk (by decide), ih]

/-- Items of an array, or rows of one. -/
theorem cnt_spaced {key : List Char} (hk : OKey key) {vs : List (List Char)} (h : ∀ v ∈ vs, goodWord v = true) {u : List Char}
    (hu : cut u = true) : count (opn key) (spaced vs ++ u) = count (opn key) u :=
  cnt_clear hk (Dpb.spaced_clear h).1 hu

theorem cnt_rows {key : List Char} (hk : OKey key) {vs : List (List (List Char))} (h : ∀ v ∈ vs, ∀ w ∈ v, goodWord w = true) (u : List Char) :
    count (opn key) (spaced (vs.map fun v => "{".toList ++ spaced v ++ " }".toList) ++ u) = count (opn key) u := by
  induction vs with
  | nil => rfl
  | cons v vs ih =>
    have e : spaced ((v :: vs).map fun v => "{".toList ++ spaced v ++ " }".toList) ++ u =
        ' ' :: '{' :: (spaced v ++ (' ' :: '}' :: (spaced (vs.map fun v => "{".toList ++ spaced v ++ " }".toList) ++ u))) := by
      simp [spaced]
    rw [e, cnt_skip hk (by decide), cnt_skip hk (by decide), cnt_spaced hk (h v (by simp)) (by simp [cut]; decide), cnt_skip hk (by decide),
      cnt_skip hk (by decide), ih fun w hw => h w (by simp [hw])]

theorem opensN_opens (key : List Char) (name : String) (ts : List Tok) :
    opensN key (.opens name :: ts) = (if key.isSuffixOf name.toList then 1 else 0) + opensN key ts := by
  unfold opensN
  rw [List.countP_cons, Nat.add_comm]

theorem name_head {name : List Char} (h : goodWord name = true) (u : List Char) : ∀ c ∈ (name ++ u).head?, c ≠ '{' := by
  have hp := goodWord_plain h
  cases name with
  | nil => simp [goodWord] at h
  | cons d name =>
    intro c hc
    simp only [List.cons_append, List.head?_cons, Option.mem_def, Option.some.injEq] at hc
    simp only [List.all_cons, Bool.and_eq_true] at hp
    rintro rfl
    rw [hc] at hp
    exact absurd hp.1 (by decide)

theorem text_head {l : Int} {i : Item} (h : Good i) {u : List Char} (hu : ∀ c ∈ u.head?, c ≠ '{') : ∀ c ∈ (text l i ++ u).head?, c ≠ '{' := by
  cases i with
  | blank => rw [text]; exact hu
  | field name value => rw [Good] at h; rw [text, List.append_assoc, List.append_assoc]; exact name_head h.1 _
  | values name vs => rw [Good] at h; rw [text, List.append_assoc, List.append_assoc, List.append_assoc]; exact name_head h.1 _
  | rows name vs => rw [Good] at h; rw [text, List.append_assoc, List.append_assoc, List.append_assoc]; exact name_head h.1 _
  | group name is => rw [Good] at h; rw [text, List.append_assoc, List.append_assoc, List.append_assoc, List.append_assoc]; exact name_head h.1 _
  | joined name is => rw [Good] at h; rw [text, List.append_assoc, List.append_assoc, List.append_assoc, List.append_assoc]; exact name_head h.1 _

theorem cut_head {u : List Char} (h : cut u = true) : ∀ c ∈ u.head?, c ≠ '{' := by
  intro c hc
  cases u with
  | nil => cases hc
  | cons d u =>
    simp only [List.head?_cons, Option.mem_def, Option.some.injEq] at hc
    subst hc
    cases u with
    | nil => simp [cut] at h; exact h.2
    | cons e u => simp [cut] at h; exact h.1.2

theorem newLine_head (l : Int) (u : List Char) : ∀ c ∈ (newLine l ++ u).head?, c ≠ '{' := by
  unfold newLine
  split <;> (intro c hc; simp at hc; rw [← hc]; decide)

theorem lines_head {l : Int} {is : List Item} (h : Goods is) {u : List Char} (hu : cut u = true) : ∀ c ∈ (lines l is ++ u).head?, c ≠ '{' := by
  cases is with
  | nil => rw [lines]; exact cut_head hu
  | cons i is =>
    rw [Goods] at h
    cases i with
    | joined name items =>
      rw [lines, List.append_assoc]
      have := h.1
      rw [Good] at this
      rw [text, List.append_assoc, List.append_assoc, List.append_assoc, List.append_assoc]
      exact name_head this.1 _
    | _ => rw [lines, List.append_assoc, List.append_assoc]; exact newLine_head l _

theorem cut_lines {l : Int} {is : List Item} (h : Goods is) (hj : startsJoined is = false) {u : List Char} (hu : cut u = true) :
    cut (lines l is ++ u) = true := by
  cases is with
  | nil => rw [lines]; exact hu
  | cons i is =>
    rw [Goods] at h
    cases i with
    | joined name items => simp [startsJoined] at hj
    | _ =>
      rw [lines, List.append_assoc, List.append_assoc]
      exact cut_newLine l (text_head h.1 (lines_head h.2.1 hu))

theorem cut_close (l : Int) (u : List Char) : cut (newLine l ++ ('}' :: u)) = true := cut_newLine l (by simp)

mutual
theorem count_text {key : List Char} (hk : OKey key) (l : Int) : ∀ (i : Item), Good i → ∀ (u : List Char), (isGroup i = true ∨ cut u = true) →
    count (opn key) (text l i ++ u) = opensN key (toks i) + count (opn key) u
  | .field name value, h, u, hu => by
    rw [text, toks]
    rw [Good] at h
    have hu := hu.resolve_left (by simp [isGroup])
    rw [cnt_clear hk _ hu]
    · simp [opensN]
    · rw [List.mem_append, List.mem_append, not_or, not_or]
      exact ⟨⟨(Dpb.word_clear h.1).1, by decide⟩, Dpb.value_clear h.2.1⟩
  | .values name vs, h, u, _ => by
    rw [text, toks, opensN_opens]
    rw [Good] at h
    have e : name.toList ++ " {".toList ++ spaced vs ++ " }".toList ++ u = name.toList ++ " {".toList ++ (spaced vs ++ (' ' :: '}' :: u)) := by
      simp
    rw [e, cnt_open hk (goodWord_plain h.1), cnt_spaced hk h.2 (by simp [cut]; decide), cnt_skip hk (by decide), cnt_skip hk (by decide)]
    simp [opensN]
  | .rows name vs, h, u, _ => by
    rw [text, toks, opensN_opens]
    rw [Good] at h
    have e : name.toList ++ " {".toList ++ spaced (vs.map fun v => "{".toList ++ spaced v ++ " }".toList) ++ " }".toList ++ u =
        name.toList ++ " {".toList ++ (spaced (vs.map fun v => "{".toList ++ spaced v ++ " }".toList) ++ (' ' :: '}' :: u)) := by
      simp
    rw [e, cnt_open hk (goodWord_plain h.1), cnt_rows hk h.2, cnt_skip hk (by decide), cnt_skip hk (by decide)]
    simp [opensN]
  | .group name items, h, u, _ => by
    rw [text, toks, opensN_opens]
    rw [Good] at h
    have e : name.toList ++ " {".toList ++ lines (deeper l) items ++ newLine l ++ "}".toList ++ u =
        name.toList ++ " {".toList ++ (lines (deeper l) items ++ (newLine l ++ ('}' :: u))) := by simp
    rw [e, cnt_open hk (goodWord_plain h.1), count_lines hk _ items h.2 _ (cut_close l u), cnt_newLine hk, cnt_skip hk (by decide), Nat.add_assoc]
  | .joined name items, h, u, _ => by
    rw [text, toks, opensN_opens]
    rw [Good] at h
    have e : name.toList ++ " {".toList ++ lines (deeper l) items ++ newLine l ++ "}".toList ++ u =
        name.toList ++ " {".toList ++ (lines (deeper l) items ++ (newLine l ++ ('}' :: u))) := by simp
    rw [e, cnt_open hk (goodWord_plain h.1), count_lines hk _ items h.2 _ (cut_close l u), cnt_newLine hk, cnt_skip hk (by decide), Nat.add_assoc]
  | .blank, _, u, _ => by rw [text, toks]; simp [opensN]
theorem count_lines {key : List Char} (hk : OKey key) (l : Int) : ∀ (is : List Item), Goods is → ∀ (u : List Char), cut u = true →
    count (opn key) (lines l is ++ u) = opensN key (toksIn is) + count (opn key) u
  | [], _, u, _ => by rw [lines, toksIn]; simp [opensN]
  | i :: is, h, u, hu => by
    rw [Goods] at h
    have ih := count_lines hk l is h.2.1 u hu
    have hb : isGroup i = true ∨ cut (lines l is ++ u) = true := by
      cases hj : startsJoined is with
      | true => exact .inl (h.2.2 hj)
      | false => exact .inr (cut_lines h.2.1 hj hu)
    have ht := count_text hk l i h.1 (lines l is ++ u) hb
    rw [toksIn, opensN_append, Nat.add_assoc, ← ih, ← ht]
    cases i with
    | joined name items => rw [lines, List.append_assoc]
    | _ => rw [lines, List.append_assoc, List.append_assoc, cnt_newLine hk]
end

/-! ### Lines -/

theorem spaced_line {vs : List (List Char)} (h : ∀ v ∈ vs, '\n' ∉ v) : '\n' ∉ spaced vs := by
  unfold spaced
  rw [List.mem_flatMap]
  rintro ⟨v, hv, hx⟩
  rcases List.mem_cons.mp hx with h1 | h1
  · exact absurd h1 (by decide)
  · exact h v hv h1

mutual
theorem text_line : ∀ (i : Item), Good i → '\n' ∉ text (-1) i
  | .field name value, h => by
    rw [text]; rw [Good] at h
    simp [goodWord_line h.1, h.2.2]
  | .values name vs, h => by
    rw [text]; rw [Good] at h
    simp [goodWord_line h.1, spaced_line fun v hv => goodWord_line (h.2 v hv)]
  | .rows name vs, h => by
    rw [text]; rw [Good] at h
    have : '\n' ∉ spaced (vs.map fun v => "{".toList ++ spaced v ++ " }".toList) := by
      refine spaced_line fun v hv => ?_
      rw [List.mem_map] at hv
      obtain ⟨w, hw, rfl⟩ := hv
      simp [spaced_line fun x hx => goodWord_line (h.2 w hw x hx)]
    simp only [List.mem_append, not_or]
    exact ⟨⟨⟨goodWord_line h.1, by decide⟩, this⟩, by decide⟩
  | .group name items, h => by
    rw [text]; rw [Good] at h
    simp [goodWord_line h.1, newLine, show deeper (-1) = -1 from rfl, lines_line items h.2]
  | .joined name items, h => by
    rw [text]; rw [Good] at h
    simp [goodWord_line h.1, newLine, show deeper (-1) = -1 from rfl, lines_line items h.2]
  | .blank, _ => by rw [text]; simp
theorem lines_line : ∀ (is : List Item), Goods is → '\n' ∉ lines (-1) is
  | [], _ => by rw [lines]; simp
  | i :: is, h => by
    rw [Goods] at h
    have h1 := text_line i h.1
    have h2 := lines_line is h.2.1
    cases i with
    | joined name items => rw [lines]; simp [h1, h2]
    | _ => rw [lines]; simp [newLine, h1, h2]
end

theorem linesGo_line {u : List Char} (h : '\n' ∉ u) (r : List Char) : linesGo (u ++ '\n' :: r) = (u, (linesGo r).1 :: (linesGo r).2) := by
  induction u with
  | nil => rw [List.nil_append, linesGo]; rfl
  | cons c u ih =>
    rw [List.cons_append, linesGo, ih fun hx => h (by simp [hx])]
    dsimp only
    rw [if_neg]
    rintro rfl
    exact h (by simp)

theorem split_lines {ls : List (List Char)} (h : ∀ l ∈ ls, '\n' ∉ l) : splitLines (ls.flatMap fun l => l ++ ['\n']) = ls := by
  have hg : ∀ ls : List (List Char), (∀ l ∈ ls, '\n' ∉ l) → (linesGo (ls.flatMap fun l => l ++ ['\n'])).1 ::
      (linesGo (ls.flatMap fun l => l ++ ['\n'])).2 = ls ++ [[]] := by
    intro ls
    induction ls with
    | nil => intro _; rfl
    | cons l ls ih =>
      intro h
      rw [List.flatMap_cons, List.append_assoc, List.singleton_append, linesGo_line (h l (by simp))]
      dsimp only
      rw [ih fun x hx => h x (by simp [hx])]
      rfl
  unfold splitLines
  dsimp only
  rw [hg ls h]
  simp

end H264.Summary
