import Verif.Model.DpbScript
import Verif.ScriptRead

/-
Searching a dump for a list in braces finds the first list whose name ends with the key.
-/

namespace H264.Dpb
open H264.Shown H264.Script

/-- The literal of a search for a list. -/
def brLit (key : List Char) : List Char := key ++ " { ".toList

/-- A key of a search for a list. -/
structure BrKey (key : List Char) : Prop where
  ne : key ≠ []
  plain : ∀ c ∈ key, plainChar c = true

/-- Text that goes on with a line break or a closing brace, or ends. -/
def Stop (r : List Char) : Prop := ∀ c ∈ r.head?, c = '\n' ∨ c = '}'

theorem stop_brace (r : List Char) : Stop ('}' :: r) := by simp [Stop]
theorem stop_newLine {l : Int} (h : 0 ≤ l) (u : List Char) : Stop (newLine l ++ u) := by
  unfold newLine
  rw [if_neg (by omega)]
  simp [Stop]

theorem br_cons {L : List Char} {c : Char} {t : List Char} (h : ¬ L <+: c :: t) : searchBraces L (c :: t) = searchBraces L t := by
  rw [searchBraces, if_neg]
  intro hx
  rw [Bool.and_eq_true, List.isPrefixOf_iff_prefix] at hx
  exact h hx.1

/-- One character that is not in a name. -/
theorem br_skip {key : List Char} (h : BrKey key) {c : Char} (hc : plainChar c = false) (r : List Char) :
    searchBraces (brLit key) (c :: r) = searchBraces (brLit key) r := by
  refine br_cons ?_
  cases key with
  | nil => exact absurd rfl h.ne
  | cons k key =>
    unfold brLit
    rw [List.cons_append, List.cons_prefix_cons]
    rintro ⟨rfl, _⟩
    have := h.plain k (by simp)
    rw [hc] at this
    cases this

/-- The literal does not begin in text without an opening brace. -/
theorem br_not_prefix {L u r : List Char} (h1 : '{' ∈ L) (h2 : '\n' ∉ L) (h3 : '}' ∉ L) (hu : '{' ∉ u) (hr : Stop r) : ¬ L <+: u ++ r := by
  induction L generalizing u with
  | nil => simp at h1
  | cons k L ih =>
    cases u with
    | nil =>
      cases r with
      | nil => rw [List.nil_append]; intro h; have := h.length_le; simp at this
      | cons d r =>
        rw [List.nil_append, List.cons_prefix_cons]
        rintro ⟨rfl, _⟩
        rcases hr k (by simp) with rfl | rfl
        · exact h2 (by simp)
        · exact h3 (by simp)
    | cons c u =>
      rw [List.cons_append, List.cons_prefix_cons]
      rintro ⟨rfl, h⟩
      have hk : '{' ≠ k := by rintro rfl; exact hu (by simp)
      refine ih ?_ (fun hx => h2 (by simp [hx])) (fun hx => h3 (by simp [hx])) (fun hx => hu (by simp [hx])) h
      rcases List.mem_cons.mp h1 with h | h
      · exact absurd h hk
      · exact h

theorem brLit_mem {key : List Char} (h : BrKey key) : '{' ∈ brLit key ∧ '\n' ∉ brLit key ∧ '}' ∉ brLit key := by
  have hp : ∀ c, plainChar c = false → c ∉ key := fun c hc hx => by
    rw [h.plain c hx] at hc
    cases hc
  unfold brLit
  refine ⟨by simp, ?_, ?_⟩
  · rw [List.mem_append, not_or]; exact ⟨hp _ (by decide), by decide⟩
  · rw [List.mem_append, not_or]; exact ⟨hp _ (by decide), by decide⟩

theorem br_clear {key : List Char} (h : BrKey key) {u r : List Char} (hu : '{' ∉ u) (hr : Stop r) :
    searchBraces (brLit key) (u ++ r) = searchBraces (brLit key) r := by
  obtain ⟨h1, h2, h3⟩ := brLit_mem h
  induction u with
  | nil => rfl
  | cons c u ih =>
    rw [List.cons_append, br_cons, ih fun hx => hu (by simp [hx])]
    rw [← List.cons_append]
    exact br_not_prefix h1 h2 h3 hu hr

/-- The literal in what follows a suffix of a name. -/
theorem br_prefix {key s w : List Char} (hk : ∀ c ∈ key, plainChar c = true) (hs : s.all plainChar = true) :
    brLit key <+: s ++ (' ' :: '{' :: w) ↔ key = s ∧ [' '] <+: w := by
  unfold brLit
  constructor
  · intro h
    induction key generalizing s with
    | nil =>
      cases s with
      | nil =>
        simp only [List.nil_append] at h
        exact ⟨rfl, by
          rw [show " { ".toList = [' ', '{', ' '] by decide, List.cons_prefix_cons, List.cons_prefix_cons] at h
          exact h.2.2⟩
      | cons c s =>
        rw [show " { ".toList = [' ', '{', ' '] by decide, List.nil_append, List.cons_append, List.cons_prefix_cons] at h
        simp only [List.all_cons, Bool.and_eq_true] at hs
        rw [← h.1] at hs
        exact absurd hs.1 (by decide)
    | cons k key ih =>
      have hk1 := hk k (by simp)
      cases s with
      | nil =>
        rw [List.nil_append, List.cons_append, List.cons_prefix_cons] at h
        rw [h.1] at hk1
        exact absurd hk1 (by decide)
      | cons c s =>
        rw [List.cons_append, List.cons_append, List.cons_prefix_cons] at h
        simp only [List.all_cons, Bool.and_eq_true] at hs
        obtain ⟨rfl, h⟩ := h
        obtain ⟨rfl, h'⟩ := ih (fun c hc => hk c (by simp [hc])) hs.2 h
        exact ⟨rfl, h'⟩
  · rintro ⟨rfl, t, rfl⟩
    exact ⟨t, by simp⟩

/-- What a search finds at a name followed by a space and a brace. -/
def brHit (key : List Char) (name : String) (w : List Char) : Option (List Char) :=
  if key.isSuffixOf name.toList && ([' '].isPrefixOf w && w.contains '}') then some ((w.drop 1).takeWhile (· ≠ '}')) else none

theorem br_name {key : List Char} (h : BrKey key) {name : String} {w : List Char} (hn : goodWord name.toList = true) :
    searchBraces (brLit key) (name.toList ++ (' ' :: '{' :: w)) = (brHit key name w).or (searchBraces (brLit key) w) := by
  have hgen : ∀ s : List Char, s.all plainChar = true → searchBraces (brLit key) (s ++ (' ' :: '{' :: w)) =
      (if key.isSuffixOf s && ([' '].isPrefixOf w && w.contains '}') then some ((w.drop 1).takeWhile (· ≠ '}')) else none).or
        (searchBraces (brLit key) w) := by
    intro s hs
    induction s with
    | nil =>
      have e : key.isSuffixOf [] = false := by
        cases hx : key.isSuffixOf [] with
        | false => rfl
        | true => rw [List.isSuffixOf_iff_suffix, List.suffix_nil] at hx; exact absurd hx h.ne
      rw [List.nil_append, br_skip h (by decide), br_skip h (by decide), e]
      rfl
    | cons c s ih =>
      simp only [List.all_cons, Bool.and_eq_true] at hs
      have ih := ih hs.2
      have hp := br_prefix (key := key) (s := c :: s) (w := w) h.plain (by simp [hs.1, hs.2])
      rw [List.cons_append] at hp
      by_cases he : key = c :: s
      · have hsuf : key.isSuffixOf (c :: s) = true := by rw [he, List.isSuffixOf_iff_suffix]; exact List.suffix_refl _
        have hno : key.isSuffixOf s = false := by
          cases hx : key.isSuffixOf s with
          | false => rfl
          | true =>
            rw [List.isSuffixOf_iff_suffix] at hx
            have := hx.length_le
            rw [he, List.length_cons] at this
            omega
        rw [hno] at ih
        rw [hsuf]
        rw [List.cons_append, searchBraces]
        cases w with
        | nil =>
          rw [if_neg, ih]
          · rfl
          · intro hx
            rw [Bool.and_eq_true, List.isPrefixOf_iff_prefix, hp] at hx
            have := hx.1.2.length_le
            simp at this
        | cons d w =>
          by_cases hd : d = ' '
          · subst hd
            have h1 : (brLit key).isPrefixOf (c :: (s ++ (' ' :: '{' :: ' ' :: w))) = true :=
              List.isPrefixOf_iff_prefix.mpr (hp.mpr ⟨he, w, rfl⟩)
            have h2 : (c :: (s ++ (' ' :: '{' :: ' ' :: w))).drop (brLit key).length = w := by
              have e : c :: (s ++ (' ' :: '{' :: ' ' :: w)) = brLit key ++ w := by unfold brLit; rw [he]; simp
              rw [e, List.drop_left]
            rw [h1, h2, ih]
            by_cases hb : '}' ∈ w <;> simp [List.isPrefixOf, hb]
          · rw [if_neg, ih]
            · have : [' '].isPrefixOf (d :: w) = false := by simp [List.isPrefixOf]; exact fun h => hd h.symm
              rw [this]; rfl
            · intro hx
              rw [Bool.and_eq_true, List.isPrefixOf_iff_prefix, hp] at hx
              obtain ⟨t, ht⟩ := hx.1.2
              simp at ht
              exact hd ht.1.symm
      · rw [List.cons_append, br_cons, ih]
        · have hsuf : key.isSuffixOf (c :: s) = key.isSuffixOf s := by
            rw [Bool.eq_iff_iff, List.isSuffixOf_iff_suffix, List.isSuffixOf_iff_suffix, List.suffix_cons_iff]
            constructor
            · rintro (h | h)
              · exact absurd h he
              · exact h
            · exact .inr
          rw [hsuf]
        · rw [hp]
          rintro ⟨he', _⟩
          exact he he'
  have := hgen name.toList (goodWord_plain hn)
  unfold brHit
  rw [← this]

theorem br_name_none {key : List Char} (h : BrKey key) {name : String} {w : List Char} (hn : goodWord name.toList = true)
    (hw : ∀ c ∈ w.head?, c ≠ ' ') : searchBraces (brLit key) (name.toList ++ (' ' :: '{' :: w)) = searchBraces (brLit key) w := by
  rw [br_name h hn, brHit, if_neg]
  · rfl
  · intro hx
    simp only [Bool.and_eq_true, List.isPrefixOf_iff_prefix] at hx
    obtain ⟨t, rfl⟩ := hx.2.1
    exact hw ' ' (by simp) rfl

/-! ### Items -/

theorem value_clear {v : List Char} (h : ∀ w ∈ lex v, goodWord w = true) : '{' ∉ v := by
  have hgen : ∀ v : List Char, '{' ∈ v → ['{'] ∈ (lexGo v).2 := by
    intro v
    induction v with
    | nil => simp
    | cons c t ih =>
      intro hx
      rw [lexGo]
      generalize hg : lexGo t = g at ih ⊢
      obtain ⟨w, ws⟩ := g
      dsimp only at ih ⊢
      have hrest : '{' ∈ t → ['{'] ∈ (if w = [] then ws else w :: ws) := by
        intro ht
        split
        · exact ih ht
        · exact List.mem_cons_of_mem _ (ih ht)
      split
      · rename_i hc
        rcases List.mem_cons.mp hx with h | h
        · exact absurd hc (by rw [← h]; decide)
        · exact hrest h
      · split
        · rcases List.mem_cons.mp hx with h | h
          · rw [← h]; simp
          · exact List.mem_cons_of_mem _ (hrest h)
        · rename_i hc
          rcases List.mem_cons.mp hx with h | h
          · exact absurd (.inl h.symm) hc
          · exact ih h
  intro hx
  have := hgen v hx
  have hm : ['{'] ∈ lex v := by
    unfold lex
    generalize lexGo v = g at this ⊢
    obtain ⟨w, ws⟩ := g
    dsimp only at this ⊢
    split
    · exact this
    · exact List.mem_cons_of_mem _ this
  exact absurd (h _ hm) (by decide)

theorem word_clear {w : List Char} (h : goodWord w = true) : '{' ∉ w ∧ '}' ∉ w ∧ ' ' ∉ w ∧ '\n' ∉ w := by
  have := goodWord_plain h
  rw [List.all_eq_true] at this
  refine ⟨?_, ?_, ?_, ?_⟩ <;> (intro hx; exact absurd (this _ hx) (by decide))

theorem spaced_clear {vs : List (List Char)} (h : ∀ v ∈ vs, goodWord v = true) : '{' ∉ spaced vs ∧ '}' ∉ spaced vs := by
  unfold spaced
  simp only [List.mem_flatMap, List.mem_cons, not_exists, not_and, not_or]
  exact ⟨fun v hv => ⟨by decide, (word_clear (h v hv)).1⟩, fun v hv => ⟨by decide, (word_clear (h v hv)).2.1⟩⟩

mutual
/-- What a search finds in an item. -/
def brFound (key : List Char) : Item → Option (List Char)
  | .field _ _ => none
  | .values name vs => brHit key name (spaced vs ++ " }".toList)
  | .rows name vs => brHit key name (spaced (vs.map fun v => "{".toList ++ spaced v ++ " }".toList) ++ " }".toList)
  | .group _ items => brFoundIn key items
  | .joined _ items => brFoundIn key items
  | .blank => none
/-- What a search finds in items: the first that is found. -/
def brFoundIn (key : List Char) : List Item → Option (List Char)
  | [] => none
  | i :: is => (brFound key i).or (brFoundIn key is)
end

theorem br_newLine {key : List Char} (hk : BrKey key) (l : Int) (r : List Char) :
    searchBraces (brLit key) (newLine l ++ r) = searchBraces (brLit key) r := by
  unfold newLine
  split
  · exact br_skip hk (by decide) r
  · rw [List.cons_append, br_skip hk (by decide)]
    induction 2 * l.toNat with
    | zero => rfl
    | succ n ih => rw [List.replicate_succ, List.cons_append, br_skip hk (by decide), ih]

theorem takeWhile_front {w u : List Char} (h : '}' ∈ w) : (w ++ u).takeWhile (· ≠ '}') = w.takeWhile (· ≠ '}') := by
  induction w with
  | nil => simp at h
  | cons c w ih =>
    rw [List.cons_append, List.takeWhile_cons, List.takeWhile_cons]
    by_cases hc : c = '}'
    · simp [hc]
    · rw [ih]
      rcases List.mem_cons.mp h with h | h
      · exact absurd h.symm hc
      · exact h

theorem brHit_append {key : List Char} {name : String} {w : List Char} (u : List Char) (hw : ∃ v, w = ' ' :: v ∧ '}' ∈ v) :
    brHit key name (w ++ u) = brHit key name w := by
  obtain ⟨v, rfl, hv⟩ := hw
  unfold brHit
  simp only [List.cons_append, List.drop_succ_cons, List.drop_zero]
  rw [takeWhile_front hv]
  simp [List.isPrefixOf, hv]

theorem br_rows {key : List Char} (hk : BrKey key) (vs : List (List (List Char))) (h : ∀ v ∈ vs, ∀ w ∈ v, goodWord w = true) (u : List Char) :
    searchBraces (brLit key) (spaced (vs.map fun v => "{".toList ++ spaced v ++ " }".toList) ++ u) = searchBraces (brLit key) u := by
  induction vs with
  | nil => rfl
  | cons v vs ih =>
    have hv := (spaced_clear (h v (by simp))).1
    have e : spaced ((v :: vs).map fun v => "{".toList ++ spaced v ++ " }".toList) ++ u =
        ' ' :: '{' :: ((spaced v ++ " ".toList) ++ ('}' :: (spaced (vs.map fun v => "{".toList ++ spaced v ++ " }".toList) ++ u))) := by
      simp [spaced]
    rw [e, br_skip hk (by decide), br_skip hk (by decide), br_clear hk ?_ (stop_brace _), br_skip hk (by decide), ih fun w hw => h w (by simp [hw])]
    rw [List.mem_append, not_or]
    exact ⟨hv, by decide⟩

/-- The text in a group begins with a line break or with a name. -/
theorem lines_head {l : Int} (hl : 0 ≤ l) (is : List Item) (h : Goods is) (u : List Char) : ∀ c ∈ (lines (deeper l) is ++ (newLine l ++ u)).head?, c ≠ ' ' := by
  have hn : ∀ (m : Int) (u : List Char), 0 ≤ m → ∀ c ∈ (newLine m ++ u).head?, c ≠ ' ' := by
    intro m u hm c hc
    unfold newLine at hc
    rw [if_neg (by omega)] at hc
    simp at hc
    rw [← hc]; decide
  cases is with
  | nil => rw [lines, List.nil_append]; exact hn l u hl
  | cons i is =>
    have hd := deeper_pos hl
    cases i with
    | joined name items =>
      rw [Goods, Good] at h
      rw [lines, text]
      have hw := h.1.1
      simp only [List.append_assoc]
      generalize name.toList = w at hw
      cases w with
      | nil => simp [goodWord] at hw
      | cons d w =>
        intro c hc
        simp at hc
        subst hc
        rintro rfl
        exact (word_clear hw).2.2.1 (by simp)
    | _ => rw [lines, List.append_assoc, List.append_assoc]; exact hn _ _ (by omega)

mutual
theorem br_text {key : List Char} (hk : BrKey key) {l : Int} (hl : 0 ≤ l) : ∀ (i : Item), Good i → ∀ (u : List Char), (isGroup i = true ∨ Stop u) →
    searchBraces (brLit key) (text l i ++ u) = (brFound key i).or (searchBraces (brLit key) u)
  | .field name value, h, u, hu => by
    rw [text, brFound]
    rw [Good] at h
    rw [br_clear hk ?_ (hu.resolve_left (by simp [isGroup]))]
    · rfl
    · simp only [List.mem_append, not_or]
      exact ⟨⟨(word_clear h.1).1, by decide⟩, value_clear h.2.1⟩
  | .values name vs, h, u, _ => by
    rw [text, brFound]
    rw [Good] at h
    have e : name.toList ++ " {".toList ++ spaced vs ++ " }".toList ++ u = name.toList ++ (' ' :: '{' :: ((spaced vs ++ " }".toList) ++ u)) := by simp
    have hs : ∃ v, spaced vs ++ " }".toList = ' ' :: v ∧ '}' ∈ v := by
      cases vs with
      | nil => exact ⟨['}'], by simp [spaced], by simp⟩
      | cons a vs => exact ⟨a ++ spaced vs ++ " }".toList, by simp [spaced], by simp⟩
    rw [e, br_name hk h.1, brHit_append u hs]
    congr 1
    have e : spaced vs ++ " }".toList ++ u = (spaced vs ++ " ".toList) ++ ('}' :: u) := by simp
    rw [e, br_clear hk ?_ (stop_brace _), br_skip hk (by decide)]
    rw [List.mem_append, not_or]
    exact ⟨(spaced_clear h.2).1, by decide⟩
  | .rows name vs, h, u, _ => by
    rw [text, brFound]
    rw [Good] at h
    have e : ∀ x : List Char, name.toList ++ " {".toList ++ x ++ " }".toList ++ u = name.toList ++ (' ' :: '{' :: ((x ++ " }".toList) ++ u)) := by simp
    have hs : ∃ v, spaced (vs.map fun v => "{".toList ++ spaced v ++ " }".toList) ++ " }".toList = ' ' :: v ∧ '}' ∈ v := by
      cases vs with
      | nil => exact ⟨['}'], by simp [spaced], by simp⟩
      | cons a vs => exact ⟨("{".toList ++ spaced a ++ " }".toList) ++ spaced (vs.map fun v => "{".toList ++ spaced v ++ " }".toList) ++ " }".toList, by simp [spaced], by simp⟩
    rw [e, br_name hk h.1, brHit_append u hs]
    congr 1
    rw [List.append_assoc, br_rows hk vs h.2]
    have e : " }".toList ++ u = ' ' :: '}' :: u := by simp
    rw [e, br_skip hk (by decide), br_skip hk (by decide)]
  | .group name items, h, u, _ => by
    rw [text, brFound]
    rw [Good] at h
    have hd := deeper_pos hl
    have e : name.toList ++ " {".toList ++ lines (deeper l) items ++ newLine l ++ "}".toList ++ u =
        name.toList ++ (' ' :: '{' :: (lines (deeper l) items ++ (newLine l ++ ('}' :: u)))) := by simp
    rw [e, br_name_none hk h.1 (lines_head hl items h.2 _), br_lines hk (by omega) items h.2 _ (stop_newLine hl _), br_newLine hk, br_skip hk (by decide)]
  | .joined name items, h, u, _ => by
    rw [text, brFound]
    rw [Good] at h
    have hd := deeper_pos hl
    have e : name.toList ++ " {".toList ++ lines (deeper l) items ++ newLine l ++ "}".toList ++ u =
        name.toList ++ (' ' :: '{' :: (lines (deeper l) items ++ (newLine l ++ ('}' :: u)))) := by simp
    rw [e, br_name_none hk h.1 (lines_head hl items h.2 _), br_lines hk (by omega) items h.2 _ (stop_newLine hl _), br_newLine hk, br_skip hk (by decide)]
  | .blank, _, u, _ => by rw [text, brFound]; rfl
theorem br_lines {key : List Char} (hk : BrKey key) {l : Int} (hl : 0 ≤ l) : ∀ (is : List Item), Goods is → ∀ (u : List Char), Stop u →
    searchBraces (brLit key) (lines l is ++ u) = (brFoundIn key is).or (searchBraces (brLit key) u)
  | [], _, u, _ => by rw [lines, brFoundIn]; rfl
  | i :: is, h, u, hu => by
    rw [Goods] at h
    have ih := br_lines hk hl is h.2.1 u hu
    have hb : isGroup i = true ∨ Stop (lines l is ++ u) := by
      cases hj : startsJoined is with
      | true => exact .inl (h.2.2 hj)
      | false =>
        right
        cases is with
        | nil => exact hu
        | cons j is => cases j <;> simp [startsJoined] at hj <;> (rw [lines, List.append_assoc, List.append_assoc]; exact stop_newLine hl _)
    have ht := br_text hk hl i h.1 (lines l is ++ u) hb
    rw [brFoundIn, Option.or_assoc, ← ih, ← ht]
    cases i with
    | joined name items => rw [lines, List.append_assoc]
    | _ => rw [lines, List.append_assoc, List.append_assoc, br_newLine hk]
end

theorem br_body {key : List Char} (hk : BrKey key) {is : List Item} (h : Goods is) : searchBraces (brLit key) (unitBody is) = brFoundIn key is := by
  have hn : searchBraces (brLit key) "\n}\n".toList = none := by
    rw [show "\n}\n".toList = ['\n', '}', '\n'] by decide, br_skip hk (by decide), br_skip hk (by decide), br_skip hk (by decide)]
    rfl
  rw [unitBody, br_lines hk (l := 1) (by decide) is h "\n}\n".toList (by unfold Stop; decide), hn, Option.or_none]

/-! ### Lists of numbers -/

theorem split_word {w : List Char} (h : ' ' ∉ w ∧ '\n' ∉ w) (u : List Char) : splitWords (w ++ u) = (w ++ (splitWords u).1, (splitWords u).2) := by
  induction w with
  | nil => rfl
  | cons c w ih =>
    simp only [List.mem_cons, not_or] at h
    rw [List.cons_append, splitWords, if_neg, ih ⟨h.1.2, h.2.2⟩]
    · rfl
    · rintro (rfl | rfl)
      · exact h.1.1 rfl
      · exact h.2.1 rfl

theorem split_spaced {vs : List (List Char)} (h : ∀ v ∈ vs, goodWord v = true) : splitWords (spaced vs ++ [' ']) = ([], vs) := by
  induction vs with
  | nil => rfl
  | cons v vs ih =>
    have hv := word_clear (h v (by simp))
    have e : spaced (v :: vs) ++ [' '] = ' ' :: (v ++ (spaced vs ++ [' '])) := by simp [spaced]
    have hne : v ≠ [] := by rintro rfl; exact absurd (h [] (by simp)) (by decide)
    rw [e, splitWords, split_word hv.2.2, ih fun w hw => h w (by simp [hw])]
    simp [hne]

theorem toInts_nats (vs : List Nat) : toInts (vs.map fun v => (toString v).toList) = .ok vs := by
  induction vs with
  | nil => rfl
  | cons v vs ih =>
    rw [List.map_cons, toInts, ih, toInt]
    obtain ⟨h1, h2, _⟩ := number_nat v
    rw [if_pos, h2]
    · rfl
    · rw [List.all_eq_true]
      intro c hc
      rw [← h1] at hc
      exact List.all_eq_true.mp (List.all_takeWhile (p := isDec) (l := (toString v).toList)) c hc

/-- The script's list for what a search finds. -/
def asInts : Option (List Char) → Except Err (List Nat)
  | none => .ok []
  | some g =>
    let r := splitWords g
    toInts (if r.1 = [] then r.2 else r.1 :: r.2)

theorem listOf_eq (name : String) (t : List Char) : listOf name t = asInts (searchBraces (brLit name.toList) t) := by
  unfold listOf asInts brLit
  cases searchBraces (name.toList ++ " { ".toList) t <;> rfl

theorem asInts_nats {key : List Char} {name : String} (h : key.isSuffixOf name.toList = true) (vs : List Nat) :
    ∃ g, brFoundIn key (nats name vs) = some g ∧ asInts (some g) = .ok vs := by
  have hw : ∀ v ∈ vs.map (fun v => (toString v).toList), goodWord v = true := by
    intro v hv
    obtain ⟨x, _, rfl⟩ := List.mem_map.mp hv
    exact nat_word x
  rw [nats, brFoundIn, brFound, brFoundIn, Option.or_none, brHit, h]
  have hs := split_spaced hw
  have hc := spaced_clear hw
  have hv := toInts_nats vs
  generalize vs.map (fun v => (toString v).toList) = ws at *
  cases ws with
  | nil => exact ⟨[], rfl, hv⟩
  | cons w ws =>
    refine ⟨w ++ (spaced ws ++ [' ']), ?_, ?_⟩
    · have e : spaced (w :: ws) ++ " }".toList = ' ' :: ((w ++ (spaced ws ++ [' '])) ++ ['}']) := by simp [spaced]
      have hn : '}' ∉ w ++ (spaced ws ++ [' ']) := by
        have e2 : spaced (w :: ws) = ' ' :: (w ++ spaced ws) := by simp [spaced]
        have := hc.2
        rw [e2] at this
        simp only [List.mem_cons, List.mem_append, not_or] at this ⊢
        exact ⟨this.2.1, this.2.2, by decide, by simp⟩
      have ht : ∀ x : List Char, '}' ∉ x → (x ++ ['}']).takeWhile (· ≠ '}') = x := by
        intro x hx
        induction x with
        | nil => rfl
        | cons c x ih =>
          simp only [List.mem_cons, not_or] at hx
          rw [List.cons_append, List.takeWhile_cons, if_pos (by simp; exact fun h => hx.1 h.symm), ih hx.2]
      rw [e, List.drop_succ_cons, List.drop_zero, ht _ hn]
      simp [List.isPrefixOf]
    · have hv' := word_clear (hw w (by simp))
      have hne : w ≠ [] := by rintro rfl; exact absurd (hw [] (by simp)) (by decide)
      show toInts (if (splitWords (w ++ (spaced ws ++ [' ']))).1 = [] then (splitWords (w ++ (spaced ws ++ [' ']))).2 else
        (splitWords (w ++ (spaced ws ++ [' ']))).1 :: (splitWords (w ++ (spaced ws ++ [' ']))).2) = _
      rw [split_word hv'.2.2, split_spaced fun v hv => hw v (by simp [hv])]
      simp [hne, hv]

/-! ### Going through items -/

section
variable {key : List Char}

theorem brIn_append (a b : List Item) : brFoundIn key (a ++ b) = (brFoundIn key a).or (brFoundIn key b) := by
  induction a with
  | nil => simp [brFoundIn]
  | cons i a ih => rw [List.cons_append, brFoundIn, brFoundIn, ih, Option.or_assoc]
theorem brIn_step {a : List Item} {bs : List (List Item)} (h : brFoundIn key a = none) :
    brFoundIn key (a :: bs).flatten = brFoundIn key bs.flatten := by rw [List.flatten_cons, brIn_append, h]; rfl
theorem brIn_first {a : List Item} {bs : List (List Item)} {g : List Char} (h : brFoundIn key a = some g) :
    brFoundIn key (a :: bs).flatten = some g := by rw [List.flatten_cons, brIn_append, h]; rfl
theorem brIn_one (i : Item) : brFoundIn key [i] = brFound key i := by simp [brFoundIn]
theorem br_struct (name : String) (is : List (List Item)) : brFound key (struct name is) = brFoundIn key is.flatten := by
  rw [struct, brFound]
theorem bskip_nil : brFoundIn key [].flatten = none := by rw [List.flatten_nil, brFoundIn]
theorem bskip_cons {a : List Item} {bs : List (List Item)} (h : brFoundIn key a = none) (hs : brFoundIn key bs.flatten = none) :
    brFoundIn key (a :: bs).flatten = none := by rw [brIn_step h, hs]
theorem bskip_opt {c : Prop} [Decidable c] {is : List (List Item)} (h : brFoundIn key is.flatten = none) :
    brFoundIn key (Shown.opt c is) = none := by
  unfold Shown.opt
  split
  · exact h
  · rfl
theorem bskip_nat {name : String} {v : Nat} : brFoundIn key (nat name v) = none := by rw [nat, brIn_one, brFound]
theorem bskip_int {name : String} {v : Int} : brFoundIn key (int name v) = none := by rw [int, brIn_one, brFound]
theorem bskip_mod32 {name : String} {v : Int} : brFoundIn key (mod32 name v) = none := by rw [mod32, brIn_one, brFound]
theorem bskip_field {name : String} {v : List Char} : brFoundIn key [.field name v] = none := by rw [brIn_one, brFound]
theorem brHit_none {name : String} {w : List Char} (h : key.isSuffixOf name.toList = false) : brHit key name w = none := by
  rw [brHit, h]; rfl
theorem bskip_nats {name : String} {vs : List Nat} (h : key.isSuffixOf name.toList = false) : brFoundIn key (nats name vs) = none := by
  rw [nats, brIn_one, brFound, brHit_none h]
theorem bskip_ints {name : String} {vs : List Int} (h : key.isSuffixOf name.toList = false) : brFoundIn key (ints name vs) = none := by
  rw [ints, brIn_one, brFound, brHit_none h]
theorem bskip_intRows {name : String} {vs : List (List Int)} (h : key.isSuffixOf name.toList = false) : brFoundIn key (intRows name vs) = none := by
  rw [intRows, brIn_one, brFound, brHit_none h]
theorem bskip_part {α : Type} {x : Option α} {f : α → Item} (h : ∀ a, brFound key (f a) = none) : brFoundIn key (part x f) = none := by
  cases x with
  | none => rfl
  | some a => rw [part, brIn_one, h]
end

/-- Shows that a search for a list finds nothing. -/
macro "bskip_items" : tactic => `(tactic| repeat' (first
  | with_reducible exact bskip_nil
  | with_reducible refine bskip_cons ?_ ?_
  | with_reducible refine bskip_opt ?_
  | with_reducible exact bskip_nat
  | with_reducible exact bskip_int
  | with_reducible exact bskip_mod32
  | with_reducible exact bskip_field
  | (with_reducible refine bskip_nats ?_; decide +kernel)
  | (with_reducible refine bskip_ints ?_; decide +kernel)
  | (with_reducible refine bskip_intRows ?_; decide +kernel)))

/-- Goes past the items in which a search for a list finds nothing. -/
macro "bpass" : tactic => `(tactic| repeat (with_reducible refine Eq.trans (brIn_step ?h) ?_; case h => (bskip_items; done)))

end H264.Dpb
