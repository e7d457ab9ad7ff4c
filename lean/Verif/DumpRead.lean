import Verif.Spec.DumpItems

/-
A dump is read back as what its items say, whatever the level.
-/

namespace H264
open H264.Shown

/-! ### Words -/

/-- A text that starts a new word. -/
def Sep (u : List Char) : Prop := (lexGo u).1 = []

theorem lex_cons (c : Char) (t : List Char) : lex (c :: t) =
    if c = ' ' ∨ c = '\n' then lex t
    else if c = '{' ∨ c = '}' then [c] :: lex t
    else (c :: (lexGo t).1) :: (lexGo t).2 := by
  simp only [lex, lexGo]
  split
  · simp
  · split <;> simp

theorem lex_sep {u : List Char} (h : Sep u) : lex u = (lexGo u).2 := by
  unfold Sep at h
  simp [lex, h]

theorem lexGo_append (t : List Char) {u : List Char} (h : Sep u) : lexGo (t ++ u) = ((lexGo t).1, (lexGo t).2 ++ lex u) := by
  induction t with
  | nil =>
    have := lex_sep h
    unfold Sep at h
    simp only [List.nil_append, lexGo]
    rw [this, ← h]
  | cons c t ih =>
    rw [List.cons_append, lexGo, ih]
    simp only [lexGo]
    split
    · split <;> simp
    · split
      · split <;> simp
      · simp

theorem lex_append (t : List Char) {u : List Char} (h : Sep u) : lex (t ++ u) = lex t ++ lex u := by
  unfold lex
  rw [lexGo_append t h]
  simp only
  split
  · rfl
  · simp [lex]

theorem sep_nil : Sep [] := rfl
theorem sep_space (u : List Char) : Sep (' ' :: u) := by simp [Sep, lexGo]
theorem sep_break (u : List Char) : Sep ('\n' :: u) := by simp [Sep, lexGo]
theorem sep_brace (u : List Char) : Sep ('{' :: u) := by simp [Sep, lexGo]
theorem sep_close (u : List Char) : Sep ('}' :: u) := by simp [Sep, lexGo]
theorem sep_newLine (l : Int) (u : List Char) : Sep (newLine l ++ u) := by
  unfold newLine
  split
  · exact sep_space u
  · exact sep_break _

theorem lex_space (u : List Char) : lex (' ' :: u) = lex u := by rw [lex_cons, if_pos (.inl rfl)]
theorem lex_break (u : List Char) : lex ('\n' :: u) = lex u := by rw [lex_cons, if_pos (.inr rfl)]
theorem lex_open (u : List Char) : lex ('{' :: u) = ['{'] :: lex u := by
  rw [lex_cons, if_neg (by decide), if_pos (.inl rfl)]
theorem lex_close (u : List Char) : lex ('}' :: u) = ['}'] :: lex u := by
  rw [lex_cons, if_neg (by decide), if_pos (.inr rfl)]

theorem lex_newLine (l : Int) (u : List Char) : lex (newLine l ++ u) = lex u := by
  unfold newLine
  split
  · exact lex_space u
  · rw [List.cons_append, lex_break]
    induction 2 * l.toNat with
    | zero => rfl
    | succ n ih => rw [List.replicate_succ, List.cons_append, lex_space, ih]

/-- Neither a separator nor a brace. -/
def plainChar (c : Char) : Bool := c != ' ' && c != '\n' && c != '{' && c != '}'

theorem lexGo_plain {w : List Char} (h : w.all plainChar = true) : lexGo w = (w, []) := by
  induction w with
  | nil => rfl
  | cons c w ih =>
    simp only [List.all_cons, Bool.and_eq_true] at h
    have hc := h.1
    simp only [plainChar, Bool.and_eq_true, bne_iff_ne] at hc
    rw [lexGo, ih h.2]
    simp only [if_neg (show ¬(c = ' ' ∨ c = '\n') by simp [hc.1.1.1, hc.1.1.2]),
      if_neg (show ¬(c = '{' ∨ c = '}') by simp [hc.1.2, hc.2])]

/-- A word that is not the name of a field. -/
def goodWord (w : List Char) : Bool := !w.isEmpty && w.all plainChar && w.getLast? != some ':'

theorem lex_word {w : List Char} (h : goodWord w = true) : lex w = [w] := by
  simp only [goodWord, Bool.and_eq_true, Bool.not_eq_true', List.isEmpty_eq_false_iff] at h
  unfold lex
  rw [lexGo_plain h.1.2]
  simp [h.1.1]

theorem goodWord_not {w : List Char} (h : goodWord w = true) : w ≠ ['{'] ∧ w ≠ ['}'] ∧ w.getLast? ≠ some ':' := by
  refine ⟨?_, ?_, ?_⟩
  · rintro rfl; revert h; decide
  · rintro rfl; revert h; decide
  · simp only [goodWord, Bool.and_eq_true, bne_iff_ne] at h
    exact h.2

/-! ### Items that can be read back -/

/-- Names and values are words; an item that starts where the previous one ends follows a closing brace. -/
def isGroup : Item → Bool
  | .field .. => false
  | .blank => false
  | _ => true

def startsJoined : List Item → Bool
  | .joined .. :: _ => true
  | _ => false

mutual
def Good : Item → Prop
  | .field name value => goodWord name.toList = true ∧ (∀ w ∈ lex value, goodWord w = true) ∧ '\n' ∉ value
  | .values name vs => goodWord name.toList = true ∧ ∀ v ∈ vs, goodWord v = true
  | .rows name vs => goodWord name.toList = true ∧ ∀ v ∈ vs, ∀ w ∈ v, goodWord w = true
  | .group name is => goodWord name.toList = true ∧ Goods is
  | .joined name is => goodWord name.toList = true ∧ Goods is
  | .blank => True
def Goods : List Item → Prop
  | [] => True
  | i :: is => Good i ∧ Goods is ∧ (startsJoined is = true → isGroup i = true)
end

mutual
/-- The words of an item. -/
def words : Item → List (List Char)
  | .field name value => (name.toList ++ [':']) :: lex value
  | .values name vs => name.toList :: ['{'] :: (vs ++ [['}']])
  | .rows name vs => name.toList :: ['{'] :: (vs.flatMap (fun v => ['{'] :: (v ++ [['}']])) ++ [['}']])
  | .group name is => name.toList :: ['{'] :: (wordsOf is ++ [['}']])
  | .joined name is => name.toList :: ['{'] :: (wordsOf is ++ [['}']])
  | .blank => []
def wordsOf : List Item → List (List Char)
  | [] => []
  | i :: is => words i ++ wordsOf is
end

theorem lex_spaced {vs : List (List Char)} (h : ∀ v ∈ vs, goodWord v = true) {u : List Char} (hu : Sep u) :
    lex (spaced vs ++ u) = vs ++ lex u ∧ Sep (spaced vs ++ u) := by
  induction vs with
  | nil => exact ⟨rfl, hu⟩
  | cons v vs ih =>
    obtain ⟨h1, h2⟩ := ih fun w hw => h w (by simp [hw])
    have e : spaced (v :: vs) ++ u = ' ' :: (v ++ (spaced vs ++ u)) := by simp [spaced]
    rw [e, lex_space, lex_append _ h2, h1, lex_word (h v (by simp))]
    exact ⟨rfl, sep_space _⟩

theorem lex_rows {vs : List (List (List Char))} (h : ∀ v ∈ vs, ∀ w ∈ v, goodWord w = true) {u : List Char} (hu : Sep u) :
    lex (spaced (vs.map fun v => "{".toList ++ spaced v ++ " }".toList) ++ u) = vs.flatMap (fun v => ['{'] :: (v ++ [['}']])) ++ lex u ∧
      Sep (spaced (vs.map fun v => "{".toList ++ spaced v ++ " }".toList) ++ u) := by
  induction vs with
  | nil => exact ⟨rfl, hu⟩
  | cons v vs ih =>
    obtain ⟨h1, h2⟩ := ih fun w hw => h w (by simp [hw])
    have e : spaced ((v :: vs).map fun v => "{".toList ++ spaced v ++ " }".toList) ++ u =
        ' ' :: '{' :: (spaced v ++ (' ' :: '}' :: (spaced (vs.map fun v => "{".toList ++ spaced v ++ " }".toList) ++ u))) := by
      simp [spaced]
    rw [e, lex_space, lex_open, (lex_spaced (h v (by simp)) (sep_space _)).1, lex_space, lex_close, h1]
    exact ⟨by simp, sep_space _⟩

theorem lex_name {name : String} (h : goodWord name.toList = true) (u : List Char) :
    lex (name.toList ++ (' ' :: '{' :: u)) = name.toList :: ['{'] :: lex u := by
  rw [lex_append _ (sep_space _), lex_word h, lex_space, lex_open]
  rfl

theorem sep_lines (l : Int) {is : List Item} (h : startsJoined is = false) {u : List Char} (hu : Sep u) : Sep (lines l is ++ u) := by
  cases is with
  | nil => exact hu
  | cons i is =>
    cases i with
    | joined n is => simp [startsJoined] at h
    | _ => simp only [lines, List.append_assoc]; exact sep_newLine _ _

mutual
theorem lex_text (l : Int) (i : Item) (h : Good i) (u : List Char) (hu : isGroup i = true ∨ Sep u) :
    lex (text l i ++ u) = words i ++ lex u := by
  match i with
  | .field name value =>
    have hu : Sep u := by simpa [isGroup] using hu
    unfold Good at h
    have h1 := h.1
    simp only [goodWord, Bool.and_eq_true, Bool.not_eq_true', List.isEmpty_eq_false_iff] at h1
    have e : text l (.field name value) ++ u = (name.toList ++ [':']) ++ (' ' :: (value ++ u)) := by simp [text]
    have hw : lex (name.toList ++ [':']) = [name.toList ++ [':']] := by
      unfold lex
      rw [lexGo_plain (by rw [List.all_append, h1.1.2]; decide)]
      simp
    rw [e, lex_append _ (sep_space _), hw, lex_space, lex_append _ hu]
    simp [words]
  | .values name vs =>
    unfold Good at h
    have e : text l (.values name vs) ++ u = name.toList ++ (' ' :: '{' :: (spaced vs ++ (' ' :: '}' :: u))) := by simp [text]
    rw [e, lex_name h.1, (lex_spaced h.2 (sep_space _)).1, lex_space, lex_close]
    simp [words]
  | .rows name vs =>
    unfold Good at h
    have e : text l (.rows name vs) ++ u = name.toList ++ (' ' :: '{' ::
        (spaced (vs.map fun v => "{".toList ++ spaced v ++ " }".toList) ++ (' ' :: '}' :: u))) := by simp [text]
    rw [e, lex_name h.1, (lex_rows h.2 (sep_space _)).1, lex_space, lex_close]
    simp [words]
  | .group name is =>
    unfold Good at h
    have e : text l (.group name is) ++ u = name.toList ++ (' ' :: '{' ::
        (lines (deeper l) is ++ (newLine l ++ ('}' :: u)))) := by simp [text]
    rw [e, lex_name h.1, lex_lines _ is h.2 _ (sep_newLine _ _), lex_newLine, lex_close]
    simp [words]
  | .joined name is =>
    unfold Good at h
    have e : text l (.joined name is) ++ u = name.toList ++ (' ' :: '{' ::
        (lines (deeper l) is ++ (newLine l ++ ('}' :: u)))) := by simp [text]
    rw [e, lex_name h.1, lex_lines _ is h.2 _ (sep_newLine _ _), lex_newLine, lex_close]
    simp [words]
  | .blank => rfl
theorem lex_lines (l : Int) (is : List Item) (h : Goods is) (u : List Char) (hu : Sep u) :
    lex (lines l is ++ u) = wordsOf is ++ lex u := by
  match is with
  | [] => rfl
  | i :: is =>
    unfold Goods at h
    have ih := lex_lines l is h.2.1 u hu
    have hs : isGroup i = true ∨ Sep (lines l is ++ u) := by
      by_cases hj : startsJoined is = true
      · exact .inl (h.2.2 hj)
      · exact .inr (sep_lines l (by simpa using hj) hu)
    have ht := lex_text l i h.1 _ hs
    have e : lex (lines l (i :: is) ++ u) = lex (text l i ++ (lines l is ++ u)) := by
      cases i with
      | joined n js => simp only [lines, List.append_assoc]
      | _ => simp only [lines, List.append_assoc, lex_newLine]
    rw [e, ht, ih, wordsOf, List.append_assoc]
end

/-! ### Reading -/

/-- What is read so far does not start with a word or an unnamed group. -/
def Closed : List Node → Prop
  | [] => True
  | .field .. :: _ => True
  | .group .. :: _ => True
  | _ => False

theorem readWord_close (f : List Node) (fs : List (List Node)) : readWord ['}'] (f :: fs) = [] :: f :: fs := by
  simp [readWord]

theorem readWord_open (f g : List Node) (fs : List (List Node)) : readWord ['{'] (f :: g :: fs) = (.braces f :: g) :: fs := by
  simp [readWord]

theorem readWord_word {w : List Char} (h : goodWord w = true) (f : List Node) (fs : List (List Node))
    (hf : ∀ b r, f ≠ .braces b :: r) : readWord w (f :: fs) = (.word w :: f) :: fs := by
  obtain ⟨h1, h2, h3⟩ := goodWord_not h
  unfold readWord
  dsimp only
  rw [if_neg h2, if_neg h1, if_neg h3]
  cases f with
  | nil => rfl
  | cons n f =>
    cases n with
    | braces b => exact absurd rfl (hf b f)
    | _ => rfl

theorem readWord_group {w : List Char} (h : goodWord w = true) (b r : List Node) (fs : List (List Node)) :
    readWord w ((.braces b :: r) :: fs) = (.group w b :: r) :: fs := by
  obtain ⟨h1, h2, h3⟩ := goodWord_not h
  unfold readWord
  dsimp only
  rw [if_neg h2, if_neg h1, if_neg h3]

theorem read_words {ws : List (List Char)} (h : ∀ w ∈ ws, goodWord w = true) (f : List Node) (fs : List (List Node))
    (hf : ∀ b r, f ≠ .braces b :: r) : ws.foldr readWord (f :: fs) = (ws.map .word ++ f) :: fs := by
  induction ws with
  | nil => rfl
  | cons w ws ih =>
    rw [List.foldr_cons, ih fun v hv => h v (by simp [hv]), readWord_word (h w (by simp))]
    · rfl
    · intro b r
      cases ws with
      | nil => exact hf b r
      | cons v vs => simp

theorem takeWords_words (ws : List (List Char)) {f : List Node} (hf : Closed f) : takeWords (ws.map .word ++ f) = (ws, f) := by
  induction ws with
  | nil =>
    cases f with
    | nil => rfl
    | cons n f => cases n <;> first | rfl | simp [Closed] at hf
  | cons w ws ih => rw [List.map_cons, List.cons_append, takeWords, ih]

theorem Closed.not_braces {f : List Node} (h : Closed f) (b r : List Node) : f ≠ .braces b :: r := by
  rintro rfl; simp [Closed] at h

theorem read_field {name : String} (hn : goodWord name.toList = true) {ws : List (List Char)} (h : ∀ w ∈ ws, goodWord w = true)
    {f : List Node} (hf : Closed f) (fs : List (List Node)) :
    ((name.toList ++ [':']) :: ws).foldr readWord (f :: fs) = (.field name.toList ws :: f) :: fs := by
  rw [List.foldr_cons, read_words h f fs hf.not_braces]
  unfold readWord
  dsimp only
  have hne : name.toList ≠ [] := by
    simp only [goodWord, Bool.and_eq_true, Bool.not_eq_true', List.isEmpty_eq_false_iff] at hn
    exact hn.1.1
  rw [if_neg, if_neg, if_pos (by simp), takeWords_words ws hf]
  · simp
  · intro h
    have := congrArg List.length h
    simp at this
    exact hne (by rw [this]; rfl)
  · intro h
    have := congrArg List.length h
    simp at this
    exact hne (by rw [this]; rfl)

theorem read_rows {vs : List (List (List Char))} (h : ∀ v ∈ vs, ∀ w ∈ v, goodWord w = true) (f : List Node) (fs : List (List Node)) :
    (vs.flatMap (fun v => ['{'] :: (v ++ [['}']]))).foldr readWord (f :: fs) = (vs.map (fun v => .braces (v.map .word)) ++ f) :: fs := by
  induction vs with
  | nil => rfl
  | cons v vs ih =>
    rw [List.flatMap_cons, List.foldr_append, ih fun w hw => h w (by simp [hw]), List.foldr_cons, List.foldr_append]
    rw [List.foldr_cons, List.foldr_nil, readWord_close, read_words (h v (by simp)) _ _ (by simp), readWord_open]
    simp

mutual
theorem read_item (i : Item) (h : Good i) (f : List Node) (fs : List (List Node)) (hf : Closed f) :
    (words i).foldr readWord (f :: fs) = (node i ++ f) :: fs ∧ Closed (node i ++ f) := by
  match i with
  | .field name value =>
    unfold Good at h
    exact ⟨read_field h.1 h.2.1 hf fs, trivial⟩
  | .values name vs =>
    unfold Good at h
    refine ⟨?_, trivial⟩
    rw [words, List.foldr_cons, List.foldr_cons, List.foldr_append, List.foldr_cons, List.foldr_nil, readWord_close,
      read_words h.2 _ _ (by simp), readWord_open, readWord_group h.1]
    simp [node]
  | .rows name vs =>
    unfold Good at h
    refine ⟨?_, trivial⟩
    rw [words, List.foldr_cons, List.foldr_cons, List.foldr_append, List.foldr_cons, List.foldr_nil, readWord_close,
      read_rows h.2, readWord_open, readWord_group h.1]
    simp [node]
  | .group name is =>
    unfold Good at h
    refine ⟨?_, trivial⟩
    rw [words, List.foldr_cons, List.foldr_cons, List.foldr_append, List.foldr_cons, List.foldr_nil, readWord_close,
      (read_items is h.2 [] _ trivial).1, readWord_open, readWord_group h.1]
    simp [node]
  | .joined name is =>
    unfold Good at h
    refine ⟨?_, trivial⟩
    rw [words, List.foldr_cons, List.foldr_cons, List.foldr_append, List.foldr_cons, List.foldr_nil, readWord_close,
      (read_items is h.2 [] _ trivial).1, readWord_open, readWord_group h.1]
    simp [node]
  | .blank => exact ⟨rfl, hf⟩
theorem read_items (is : List Item) (h : Goods is) (f : List Node) (fs : List (List Node)) (hf : Closed f) :
    (wordsOf is).foldr readWord (f :: fs) = (nodes is ++ f) :: fs ∧ Closed (nodes is ++ f) := by
  match is with
  | [] => exact ⟨rfl, hf⟩
  | i :: is =>
    unfold Goods at h
    obtain ⟨h1, h2⟩ := read_items is h.2.1 f fs hf
    obtain ⟨h3, h4⟩ := read_item i h.1 _ fs h2
    rw [wordsOf, List.foldr_append, h1, h3, nodes, List.append_assoc]
    exact ⟨rfl, h4⟩
end

/-- The text of an item is read back as what the item says, whatever the level. -/
theorem read_text (l : Int) (i : Item) (h : Good i) : readBack (text l i) = some (node i) := by
  have h1 := lex_text l i h [] (.inr sep_nil)
  rw [List.append_nil, show lex [] = [] from rfl, List.append_nil] at h1
  unfold readBack
  rw [h1, (read_item i h [] [] trivial).1]
  simp

/-- The same for items one after another, each followed by a line break. -/
theorem read_texts (l : Int) (is : List Item) (h : ∀ i ∈ is, Good i) :
    readBack (is.flatMap fun i => text l i ++ ['\n']) = some (is.flatMap node) := by
  have h1 : lex (is.flatMap fun i => text l i ++ ['\n']) = is.flatMap words := by
    induction is with
    | nil => rfl
    | cons i is ih =>
      rw [List.flatMap_cons, List.append_assoc, List.singleton_append,
        lex_text l i (h i (by simp)) _ (.inr (sep_break _)), lex_break, ih fun j hj => h j (by simp [hj])]
      rfl
  have h2 : (is.flatMap words).foldr readWord [[]] = [is.flatMap node] ∧ Closed (is.flatMap node) := by
    clear h1
    induction is with
    | nil => exact ⟨rfl, trivial⟩
    | cons i is ih =>
      obtain ⟨q1, q2⟩ := ih fun j hj => h j (by simp [hj])
      obtain ⟨q3, q4⟩ := read_item i (h i (by simp)) _ [] q2
      rw [List.flatMap_cons, List.foldr_append, q1, q3]
      exact ⟨rfl, q4⟩
  unfold readBack
  rw [h1, h2.1]

end H264
