import Verif.Model.SplitScript
import Verif.DumpGood

/-
Searching a dump with a regular expression finds the first field whose name ends with the key.
-/

namespace H264.Script
open H264.Shown

/-! ### Quiet text -/

/-- No colon is at the end or followed by a space. -/
def quiet : List Char → Bool
  | [] => true
  | c :: t => (c != ':' || (match t with | [] => false | d :: _ => d != ' ')) && quiet t

theorem quiet_append {a b : List Char} (ha : quiet a = true) (hb : quiet b = true) : quiet (a ++ b) = true := by
  induction a with
  | nil => exact hb
  | cons c a ih =>
    simp only [quiet, Bool.and_eq_true] at ha
    simp only [List.cons_append, quiet, Bool.and_eq_true]
    refine ⟨?_, ih ha.2⟩
    have := ha.1
    cases a with
    | nil => simp only [Bool.or_false] at this; simp [this]
    | cons d a => exact this

/-- Text that goes on with a separator or a brace, or ends. -/
def Brk (r : List Char) : Prop := ∀ c ∈ r.head?, plainChar c = false

theorem brk_nil : Brk [] := by simp [Brk]
theorem brk_cons {c : Char} (h : plainChar c = false) (r : List Char) : Brk (c :: r) := by simp [Brk, h]
theorem brk_newLine (l : Int) (u : List Char) : Brk (newLine l ++ u) := by
  unfold newLine
  split
  · exact brk_cons (by decide) _
  · exact brk_cons (by decide) _

/-- What the searches look for: a key made of the characters of names, a colon and a space, and possibly the beginning of a value. -/
structure Key (key ext : List Char) (cls : Char → Bool) : Prop where
  ne : key ≠ []
  word : ∀ c ∈ key, wordChar c = true
  ext : ∀ c ∈ ext, plainChar c = true
  cls : ∀ c, cls c = true → plainChar c = true

/-- The literal of a search. -/
def lit (key ext : List Char) : List Char := key ++ (':' :: ' ' :: ext)

theorem matchAt_none {l : List Char} {cls : Char → Bool} {t : List Char} (h : ¬ l <+: t) : matchAt l cls t = none := by
  unfold matchAt
  rw [if_neg (by rw [List.isPrefixOf_iff_prefix]; exact h)]

theorem search_cons_none {l : List Char} {cls : Char → Bool} {c : Char} {t : List Char} (h : ¬ l <+: c :: t) :
    search l cls (c :: t) = search l cls t := by
  rw [search, matchAt_none h]

/-- The literal does not begin in quiet text. -/
theorem not_prefix_quiet {key ext u r : List Char} (hk : ∀ c ∈ key, wordChar c = true) (hq : quiet u = true) (hr : Brk r) (hu : u ≠ []) :
    ¬ lit key ext <+: u ++ r := by
  induction key generalizing u with
  | nil =>
    unfold lit
    cases u with
    | nil => exact absurd rfl hu
    | cons c u =>
      simp only [List.nil_append, List.cons_append, List.cons_prefix_cons]
      rintro ⟨rfl, h⟩
      simp only [quiet, Bool.and_eq_true] at hq
      cases u with
      | nil => simp at hq
      | cons d u =>
        rw [List.cons_append, List.cons_prefix_cons] at h
        obtain ⟨rfl, _⟩ := h
        simp at hq
  | cons k key ih =>
    have hk1 : ∀ c ∈ key, wordChar c = true := fun c hc => hk c (by simp [hc])
    cases u with
    | nil => exact absurd rfl hu
    | cons c u =>
      unfold lit
      rw [List.cons_append, List.cons_append, List.cons_prefix_cons]
      rintro ⟨rfl, h⟩
      simp only [quiet, Bool.and_eq_true] at hq
      cases u with
      | nil =>
        rw [List.nil_append] at h
        cases r with
        | nil =>
          have := h.length_le
          simp at this
        | cons d r =>
          have hd : plainChar d = false := hr d (by simp)
          cases key with
          | nil =>
            simp only [List.nil_append, List.cons_prefix_cons] at h
            rw [← h.1] at hd
            revert hd; decide
          | cons k key =>
            simp only [List.cons_append, List.cons_prefix_cons] at h
            have := hk1 k (by simp)
            rw [h.1] at this
            unfold wordChar at this
            rw [hd] at this
            simp at this
      | cons d u => exact ih hk1 hq.2 (by simp) h

theorem search_quiet {key ext : List Char} {cls : Char → Bool} (hk : ∀ c ∈ key, wordChar c = true) {u r : List Char} (hq : quiet u = true) (hr : Brk r) :
    search (lit key ext) cls (u ++ r) = search (lit key ext) cls r := by
  induction u with
  | nil => rfl
  | cons c u ih =>
    rw [List.cons_append, search_cons_none]
    · refine ih ?_
      simp only [quiet, Bool.and_eq_true] at hq
      exact hq.2
    · rw [← List.cons_append]
      exact not_prefix_quiet hk hq hr (by simp)

/-- One character that is not in a name. -/
theorem search_skip {key ext : List Char} {cls : Char → Bool} (h : Key key ext cls) {c : Char} (hc : wordChar c = false) (r : List Char) :
    search (lit key ext) cls (c :: r) = search (lit key ext) cls r := by
  refine search_cons_none ?_
  cases key with
  | nil => exact absurd rfl h.ne
  | cons k key =>
    unfold lit
    rw [List.cons_append, List.cons_prefix_cons]
    rintro ⟨rfl, _⟩
    have := h.word k (by simp)
    rw [hc] at this
    cases this

/-! ### Fields -/

/-- What a search finds in a field. -/
def hit (key ext : List Char) (cls : Char → Bool) (name : String) (value : List Char) : Option (List Char) :=
  if key.isSuffixOf name.toList && (ext.isPrefixOf value && !((value.drop ext.length).takeWhile cls).isEmpty) then
    some ((value.drop ext.length).takeWhile cls)
  else none

theorem takeWhile_brk {cls : Char → Bool} (hc : ∀ c, cls c = true → plainChar c = true) {v r : List Char} (hr : Brk r) :
    (v ++ r).takeWhile cls = v.takeWhile cls := by
  induction v with
  | nil =>
    cases r with
    | nil => rfl
    | cons d r =>
      have hd : cls d = false := by
        cases hx : cls d with
        | false => rfl
        | true => rw [← hc d hx]; exact hr d (by simp)
      rw [List.nil_append, List.takeWhile_cons, hd]; rfl
  | cons c v ih =>
    rw [List.cons_append, List.takeWhile_cons, List.takeWhile_cons, ih]

theorem prefix_brk {ext : List Char} (he : ∀ c ∈ ext, plainChar c = true) {v r : List Char} (hr : Brk r) :
    ext <+: v ++ r ↔ ext <+: v := by
  constructor
  · intro h
    induction ext generalizing v with
    | nil => exact List.nil_prefix
    | cons e ext ih =>
      cases v with
      | nil =>
        cases r with
        | nil => exact h
        | cons d r =>
          rw [List.nil_append, List.cons_prefix_cons] at h
          have h1 := he e (by simp)
          rw [h.1, hr d (by simp)] at h1
          cases h1
      | cons c v =>
        rw [List.cons_append, List.cons_prefix_cons] at h
        rw [List.cons_prefix_cons]
        exact ⟨h.1, ih (fun c hc => he c (by simp [hc])) h.2⟩
  · intro h
    exact h.trans (List.prefix_append _ _)

/-- The literal in what follows a suffix of a name. -/
theorem prefix_name {key ext s w : List Char} (hk : ∀ c ∈ key, wordChar c = true) (hs : s.all plainChar = true) :
    lit key ext <+: s ++ (':' :: ' ' :: w) ↔ key = s ∧ ext <+: w := by
  unfold lit
  constructor
  · intro h
    induction key generalizing s with
    | nil =>
      cases s with
      | nil =>
        simp only [List.nil_append, List.cons_prefix_cons, true_and] at h
        exact ⟨rfl, h⟩
      | cons c s =>
        simp only [List.nil_append, List.cons_append, List.cons_prefix_cons] at h
        obtain ⟨rfl, h⟩ := h
        simp only [List.all_cons, Bool.and_eq_true] at hs
        cases s with
        | nil =>
          rw [List.nil_append, List.cons_prefix_cons] at h
          exact absurd h.1 (by decide)
        | cons d s =>
          rw [List.cons_append, List.cons_prefix_cons] at h
          obtain ⟨rfl, _⟩ := h
          simp only [List.all_cons, Bool.and_eq_true] at hs
          exact absurd hs.2.1 (by decide)
    | cons k key ih =>
      have hk1 := hk k (by simp)
      cases s with
      | nil =>
        rw [List.nil_append, List.cons_append, List.cons_prefix_cons] at h
        rw [h.1] at hk1
        exact absurd hk1 (by decide)
      | cons c s =>
        rw [List.cons_append, List.cons_append, List.cons_prefix_cons] at h
        simp only [List.all_cons, Bool.and_eq_true] at hs
        obtain ⟨rfl, h⟩ := h
        obtain ⟨rfl, h'⟩ := ih (fun c hc => hk c (by simp [hc])) hs.2 h
        exact ⟨rfl, h'⟩
  · rintro ⟨rfl, t, rfl⟩
    exact ⟨t, by simp⟩

theorem quiet_words {v : List Char} (h1 : ∀ w ∈ (lexGo v).2, w.getLast? ≠ some ':') (h2 : (lexGo v).1.getLast? ≠ some ':') : quiet v = true := by
  induction v with
  | nil => rfl
  | cons c t ih =>
    rw [lexGo] at h1 h2
    simp only [quiet, Bool.and_eq_true]
    generalize hg : lexGo t = g at h1 h2 ih
    obtain ⟨w, ws⟩ := g
    dsimp only at h1 h2 ih
    have hrest : ∀ rest : List (List Char), rest = (if w = [] then ws else w :: ws) → (∀ x ∈ rest, x.getLast? ≠ some ':') → quiet t = true := by
      rintro rest rfl hr
      by_cases hw : w = []
      · rw [if_pos hw] at hr
        exact ih hr (by rw [hw]; simp)
      · rw [if_neg hw] at hr
        exact ih (fun x hx => hr x (by simp [hx])) (hr w (by simp))
    by_cases c1 : c = ' ' ∨ c = '\n'
    · rw [if_pos c1] at h1
      refine ⟨?_, hrest _ rfl h1⟩
      rcases c1 with rfl | rfl <;> rfl
    · rw [if_neg c1] at h1 h2
      by_cases c2 : c = '{' ∨ c = '}'
      · rw [if_pos c2] at h1
        refine ⟨?_, hrest _ rfl fun x hx => h1 x (by simp only [List.mem_cons]; exact .inr hx)⟩
        rcases c2 with rfl | rfl <;> rfl
      · rw [if_neg c2] at h1 h2
        dsimp only at h1 h2
        cases w with
        | nil =>
          refine ⟨?_, ih h1 (by simp)⟩
          have : c ≠ ':' := by rintro rfl; exact h2 rfl
          simp [this]
        | cons d w =>
          rw [List.getLast?_cons_cons] at h2
          refine ⟨?_, ih h1 h2⟩
          cases t with
          | nil => simp [lexGo] at hg
          | cons e t =>
            rw [lexGo] at hg
            have : e ≠ ' ' := by
              rintro rfl
              generalize lexGo t = g at hg
              obtain ⟨a, b⟩ := g
              simp at hg
            simp [this]

theorem quiet_value {v : List Char} (h : ∀ w ∈ lex v, goodWord w = true) : quiet v = true := by
  have hl : ∀ w ∈ lex v, w.getLast? ≠ some ':' := fun w hw => (goodWord_not (h w hw)).2.2
  unfold lex at hl
  generalize hg : lexGo v = g at hl
  obtain ⟨w, ws⟩ := g
  dsimp only at hl
  refine quiet_words ?_ ?_
  · rw [hg]
    intro x hx
    refine hl x ?_
    split
    · exact hx
    · simp only [List.mem_cons]; exact .inr hx
  · rw [hg]
    by_cases hw : w = []
    · rw [hw]; simp
    · rw [if_neg hw] at hl
      exact hl w (by simp)

theorem plain_quiet {w : List Char} (h : goodWord w = true) : quiet w = true := by
  refine quiet_value ?_
  rw [lex_word h]
  intro x hx
  rw [List.mem_singleton.mp hx]; exact h

theorem goodWord_plain {w : List Char} (h : goodWord w = true) : w.all plainChar = true := by
  simp only [goodWord, Bool.and_eq_true] at h
  exact h.1.2

/-- A search in a field and what follows. -/
theorem search_field {key ext : List Char} {cls : Char → Bool} (h : Key key ext cls) {name : String} {value r : List Char}
    (hn : goodWord name.toList = true) (hv : ∀ w ∈ lex value, goodWord w = true) (hr : Brk r) :
    search (lit key ext) cls (name.toList ++ ": ".toList ++ value ++ r) =
      (hit key ext cls name value).or (search (lit key ext) cls r) := by
  have hgen : ∀ s : List Char, s.all plainChar = true → search (lit key ext) cls (s ++ (':' :: ' ' :: (value ++ r))) =
      (if key.isSuffixOf s && (ext.isPrefixOf value && !((value.drop ext.length).takeWhile cls).isEmpty) then
        some ((value.drop ext.length).takeWhile cls) else none).or (search (lit key ext) cls r) := by
    intro s hs
    induction s with
    | nil =>
      have e : key.isSuffixOf [] = false := by
        cases hx : key.isSuffixOf [] with
        | false => rfl
        | true => rw [List.isSuffixOf_iff_suffix, List.suffix_nil] at hx; exact absurd hx h.ne
      rw [List.nil_append, search_skip h (by decide), search_skip h (by decide), search_quiet h.word (quiet_value hv) hr, e]
      rfl
    | cons c s ih =>
      simp only [List.all_cons, Bool.and_eq_true] at hs
      have ih := ih hs.2
      have hp := prefix_name (key := key) (ext := ext) (s := c :: s) (w := value ++ r) h.word (by simp [hs.1, hs.2])
      rw [List.cons_append] at hp
      by_cases he : key = c :: s
      · have hsuf : key.isSuffixOf (c :: s) = true := by rw [he, List.isSuffixOf_iff_suffix]; exact List.suffix_refl _
        have hno : key.isSuffixOf s = false := by
          cases hx : key.isSuffixOf s with
          | false => rfl
          | true =>
            rw [List.isSuffixOf_iff_suffix] at hx
            have := hx.length_le
            rw [he, List.length_cons] at this
            omega
        rw [hno] at ih
        rw [hsuf]
        have hlen : (lit key ext).length = (c :: s).length + (2 + ext.length) := by unfold lit; rw [he]; simp; omega
        by_cases hx : ext <+: value
        · have hm : (ext.isPrefixOf value) = true := List.isPrefixOf_iff_prefix.mpr hx
          obtain ⟨v', rfl⟩ := hx
          have hd : ((c :: s) ++ (':' :: ' ' :: ((ext ++ v') ++ r))).drop (lit key ext).length = v' ++ r := by
            rw [hlen, ← List.drop_drop, List.drop_left, Nat.add_comm 2, ← List.drop_drop, List.append_assoc]
            rw [show (':' :: ' ' :: (ext ++ (v' ++ r))) = [':', ' '] ++ (ext ++ (v' ++ r)) by rfl]
            rw [List.drop_drop, Nat.add_comm, ← List.drop_drop]
            show List.drop ext.length (ext ++ (v' ++ r)) = _
            rw [List.drop_left]
          rw [List.cons_append] at hd
          rw [List.cons_append, search]
          have hma : matchAt (lit key ext) cls (c :: (s ++ (':' :: ' ' :: (ext ++ v' ++ r)))) =
              if (v'.takeWhile cls).isEmpty then none else some (v'.takeWhile cls) := by
            unfold matchAt
            rw [if_pos (List.isPrefixOf_iff_prefix.mpr (hp.mpr ⟨he, by rw [List.append_assoc]; exact List.prefix_append _ _⟩)), hd,
              takeWhile_brk h.cls hr]
          rw [hma, hm, List.drop_left]
          cases hem : (v'.takeWhile cls).isEmpty with
          | true =>
            simp only [if_true]
            rw [List.drop_left] at ih
            rw [ih]
            simp
          | false => simp
        · have hm : (ext.isPrefixOf value) = false := by
            cases hy : ext.isPrefixOf value with
            | false => rfl
            | true => exact absurd (List.isPrefixOf_iff_prefix.mp hy) hx
          rw [List.cons_append, search_cons_none, ih, hm]
          · simp
          · rw [hp, prefix_brk h.ext hr]
            rintro ⟨_, hx'⟩
            exact hx hx'
      · rw [List.cons_append, search_cons_none, ih]
        · have hsuf : key.isSuffixOf (c :: s) = key.isSuffixOf s := by
            rw [Bool.eq_iff_iff, List.isSuffixOf_iff_suffix, List.isSuffixOf_iff_suffix, List.suffix_cons_iff]
            constructor
            · rintro (h | h)
              · exact absurd h he
              · exact h
            · exact .inr
          rw [hsuf]
        · rw [hp]
          rintro ⟨he', _⟩
          exact he he'
  have := hgen name.toList (goodWord_plain hn)
  unfold hit
  rw [← this]
  simp

/-! ### Items -/

mutual
/-- What a search finds in an item. -/
def found (key ext : List Char) (cls : Char → Bool) : Item → Option (List Char)
  | .field name value => hit key ext cls name value
  | .values _ _ => none
  | .rows _ _ => none
  | .group _ items => foundIn key ext cls items
  | .joined _ items => foundIn key ext cls items
  | .blank => none
/-- What a search finds in items: the first that is found. -/
def foundIn (key ext : List Char) (cls : Char → Bool) : List Item → Option (List Char)
  | [] => none
  | i :: is => (found key ext cls i).or (foundIn key ext cls is)
end

theorem quiet_spaced {vs : List (List Char)} (h : ∀ v ∈ vs, quiet v = true) : quiet (spaced vs) = true := by
  induction vs with
  | nil => rfl
  | cons v vs ih =>
    have e : spaced (v :: vs) = [' '] ++ (v ++ spaced vs) := by simp [spaced]
    rw [e]
    exact quiet_append rfl (quiet_append (h v (by simp)) (ih fun w hw => h w (by simp [hw])))

theorem quiet_newLine (l : Int) : quiet (newLine l) = true := by
  unfold newLine
  split
  · rfl
  · show quiet (['\n'] ++ _) = true
    refine quiet_append rfl ?_
    induction 2 * l.toNat with
    | zero => rfl
    | succ n ih => rw [List.replicate_succ]; exact quiet_append (a := [' ']) rfl ih

theorem search_newLine {key ext : List Char} {cls : Char → Bool} (hk : Key key ext cls) (l : Int) (r : List Char) :
    search (lit key ext) cls (newLine l ++ r) = search (lit key ext) cls r := by
  unfold newLine
  split
  · exact search_skip hk (by decide) r
  · rw [List.cons_append, search_skip hk (by decide)]
    induction 2 * l.toNat with
    | zero => rfl
    | succ n ih => rw [List.replicate_succ, List.cons_append, search_skip hk (by decide), ih]

mutual
theorem search_text {key ext : List Char} {cls : Char → Bool} (hk : Key key ext cls) (l : Int) : ∀ (i : Item), Good i → ∀ (u : List Char), (isGroup i = true ∨ Brk u) →
    search (lit key ext) cls (text l i ++ u) = (found key ext cls i).or (search (lit key ext) cls u)
  | .field name value, h, u, hu => by
    rw [text, found]
    rw [Good] at h
    exact search_field hk h.1 h.2.1 (hu.resolve_left (by simp [isGroup]))
  | .values name vs, h, u, _ => by
    rw [text, found]
    rw [Good] at h
    have e : name.toList ++ " {".toList ++ spaced vs ++ " }".toList ++ u = (name.toList ++ (" {".toList ++ (spaced vs ++ " ".toList))) ++ ('}' :: u) := by
      simp
    rw [e, search_quiet hk.word ?_ (brk_cons (by decide) _), search_skip hk (by decide)]
    · rfl
    · exact quiet_append (plain_quiet h.1) (quiet_append (by decide) (quiet_append (quiet_spaced fun v hv => plain_quiet (h.2 v hv)) (by decide)))
  | .rows name vs, h, u, _ => by
    rw [text, found]
    rw [Good] at h
    have e : name.toList ++ " {".toList ++ spaced (vs.map fun v => "{".toList ++ spaced v ++ " }".toList) ++ " }".toList ++ u =
        (name.toList ++ (" {".toList ++ (spaced (vs.map fun v => "{".toList ++ spaced v ++ " }".toList) ++ " ".toList))) ++ ('}' :: u) := by
      simp
    rw [e, search_quiet hk.word ?_ (brk_cons (by decide) _), search_skip hk (by decide)]
    · rfl
    · refine quiet_append (plain_quiet h.1) (quiet_append (by decide) (quiet_append (quiet_spaced ?_) (by decide)))
      intro v hv
      rw [List.mem_map] at hv
      obtain ⟨w, hw, rfl⟩ := hv
      exact quiet_append (quiet_append (by decide) (quiet_spaced fun x hx => plain_quiet (h.2 w hw x hx))) (by decide)
  | .group name items, h, u, _ => by
    rw [text, found]
    rw [Good] at h
    have e : name.toList ++ " {".toList ++ lines (deeper l) items ++ newLine l ++ "}".toList ++ u =
        (name.toList ++ " ".toList) ++ ('{' :: (lines (deeper l) items ++ (newLine l ++ ('}' :: u)))) := by simp
    rw [e, search_quiet hk.word (quiet_append (plain_quiet h.1) (by decide)) (brk_cons (by decide) _), search_skip hk (by decide),
      search_lines hk _ items h.2 _ (brk_newLine _ _), search_quiet hk.word (quiet_newLine l) (brk_cons (by decide) _), search_skip hk (by decide)]
  | .joined name items, h, u, _ => by
    rw [text, found]
    rw [Good] at h
    have e : name.toList ++ " {".toList ++ lines (deeper l) items ++ newLine l ++ "}".toList ++ u =
        (name.toList ++ " ".toList) ++ ('{' :: (lines (deeper l) items ++ (newLine l ++ ('}' :: u)))) := by simp
    rw [e, search_quiet hk.word (quiet_append (plain_quiet h.1) (by decide)) (brk_cons (by decide) _), search_skip hk (by decide),
      search_lines hk _ items h.2 _ (brk_newLine _ _), search_quiet hk.word (quiet_newLine l) (brk_cons (by decide) _), search_skip hk (by decide)]
  | .blank, _, u, _ => by rw [text, found]; rfl
theorem search_lines {key ext : List Char} {cls : Char → Bool} (hk : Key key ext cls) (l : Int) : ∀ (is : List Item), Goods is → ∀ (u : List Char), Brk u →
    search (lit key ext) cls (lines l is ++ u) = (foundIn key ext cls is).or (search (lit key ext) cls u)
  | [], _, u, _ => by rw [lines, foundIn]; rfl
  | i :: is, h, u, hu => by
    rw [Goods] at h
    have ih := search_lines hk l is h.2.1 u hu
    have hb : isGroup i = true ∨ Brk (lines l is ++ u) := by
      cases hj : startsJoined is with
      | true => exact .inl (h.2.2 hj)
      | false =>
        right
        cases is with
        | nil => exact hu
        | cons j is => cases j <;> simp [startsJoined] at hj <;> (rw [lines, List.append_assoc, List.append_assoc]; exact brk_newLine _ _)
    have ht := search_text hk l i h.1 (lines l is ++ u) hb
    rw [foundIn, Option.or_assoc, ← ih, ← ht]
    cases i with
    | joined name items => rw [lines, List.append_assoc]
    | _ => rw [lines, List.append_assoc, List.append_assoc, search_newLine hk]
end

end H264.Script
