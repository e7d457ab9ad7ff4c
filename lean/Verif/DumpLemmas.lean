import Verif.Model.Dump
import Verif.Spec.Dump

/-
The layout of the dumps: lemmas on texts, and on the combinators the `fdump` functions are written with.
-/

namespace H264

/-! ### Texts -/

theorem depth_nil : depth [] = 0 := rfl
theorem depth_append (a b : Text) : depth (a ++ b) = depth a + depth b := by
  simp only [depth, List.count_append]; omega

/-- No line break and no brace. -/
def Plain (t : Text) : Prop := ∀ c ∈ t, c ≠ '\n' ∧ c ≠ '{' ∧ c ≠ '}'

theorem Plain.nil : Plain [] := by intro c h; cases h
theorem Plain.append {a b : Text} (ha : Plain a) (hb : Plain b) : Plain (a ++ b) := by
  intro c h
  rcases List.mem_append.mp h with h | h
  · exact ha c h
  · exact hb c h
theorem Plain.cons {c : Char} {a : Text} (hc : c ≠ '\n' ∧ c ≠ '{' ∧ c ≠ '}') (ha : Plain a) : Plain (c :: a) := by
  intro d h
  rcases List.mem_cons.mp h with rfl | h
  · exact hc
  · exact ha d h
theorem Plain.depth {t : Text} (h : Plain t) : depth t = 0 := by
  unfold H264.depth
  rw [List.count_eq_zero.mpr (fun hm => (h _ hm).2.1 rfl), List.count_eq_zero.mpr (fun hm => (h _ hm).2.2 rfl)]
  rfl
theorem Plain.left {a b : Text} (h : Plain (a ++ b)) : Plain a := fun c hc => h c (List.mem_append_left _ hc)
theorem Plain.balanced {t : Text} (h : Plain t) : Balanced t :=
  ⟨h.depth, fun a b e => by subst e; rw [h.left.depth]; decide⟩
theorem Plain.spaces (n : Nat) : Plain (List.replicate n ' ') := by
  intro c h
  rw [List.eq_of_mem_replicate h]
  decide

theorem Balanced.append {a b : Text} (ha : Balanced a) (hb : Balanced b) : Balanced (a ++ b) := by
  refine ⟨by rw [depth_append, ha.closed, hb.closed]; rfl, ?_⟩
  intro x y e
  rcases List.append_eq_append_iff.mp e with ⟨u, rfl, rfl⟩ | ⟨u, rfl, rfl⟩
  · rw [depth_append, ha.closed]; have := hb.opened u y rfl; omega
  · exact ha.opened x u rfl

/-- `{`, something balanced, `}`. -/
theorem Balanced.braces {a : Text} (ha : Balanced a) : Balanced ('{' :: (a ++ ['}'])) := by
  refine ⟨?_, ?_⟩
  · show depth (['{'] ++ (a ++ ['}'])) = 0
    rw [depth_append, depth_append, ha.closed]; decide
  · intro x y e
    cases x with
    | nil => decide
    | cons c x =>
      rw [List.cons_append, List.cons.injEq] at e
      obtain ⟨rfl, e⟩ := e
      have h1 : depth ('{' :: x) = 1 + depth x := by
        show depth (['{'] ++ x) = _
        rw [depth_append]; rfl
      rw [h1]
      rcases List.append_eq_append_iff.mp e with ⟨u, rfl, hu⟩ | ⟨u, rfl, rfl⟩
      · rw [depth_append, ha.closed]
        cases u with
        | nil => decide
        | cons d u =>
          rw [List.cons_append, List.cons.injEq] at hu
          obtain ⟨rfl, hu⟩ := hu
          obtain ⟨rfl, _⟩ := List.append_eq_nil_iff.mp hu.symm
          decide
      · have := ha.opened x u rfl; omega

theorem plain_split {p t a b : Text} (hp : Plain p) (h : p ++ t = a ++ '\n' :: b) : ∃ a', a = p ++ a' ∧ t = a' ++ '\n' :: b := by
  rcases List.append_eq_append_iff.mp h with ⟨u, rfl, rfl⟩ | ⟨u, rfl, hu⟩
  · exact ⟨u, rfl, rfl⟩
  · cases u with
    | nil => exact ⟨[], by simp, by simpa using hu.symm⟩
    | cons d u =>
      rw [List.cons_append, List.cons.injEq] at hu
      obtain ⟨rfl, _⟩ := hu
      exact absurd rfl (hp '\n' (by simp)).1

/-- A prefix with no line break. -/
theorem noNl_split {p t a b : Text} (hp : '\n' ∉ p) (h : p ++ t = a ++ '\n' :: b) : ∃ a', a = p ++ a' ∧ t = a' ++ '\n' :: b := by
  rcases List.append_eq_append_iff.mp h with ⟨u, rfl, rfl⟩ | ⟨u, rfl, hu⟩
  · exact ⟨u, rfl, rfl⟩
  · cases u with
    | nil => exact ⟨[], by simp, by simpa using hu.symm⟩
    | cons d u =>
      rw [List.cons_append, List.cons.injEq] at hu
      obtain ⟨rfl, _⟩ := hu
      exact absurd (by simp) hp

theorem Plain.noNl {t : Text} (h : Plain t) : '\n' ∉ t := fun hm => (h _ hm).1 rfl

theorem Indented.noNl {l : Nat} {t : Text} (h : '\n' ∉ t) : Indented l t := by
  intro a b e
  subst e
  exact absurd (by simp) h

/-- Some lines of a dump at level `l`, each with its line break before it. -/
structure Lines (l : Nat) (t : Text) : Prop where
  bal : Balanced t
  start : t = [] ∨ ∃ u, t = '\n' :: u
  ind : Indented l t

/-- A text that follows on a line begun at level `l`. -/
structure Blk (l : Nat) (t : Text) : Prop where
  bal : Balanced t
  start : ∃ c u, t = c :: u ∧ c ≠ ' ' ∧ c ≠ '}' ∧ c ≠ '\n'
  ind : Indented l t

theorem Lines.nil (l : Nat) : Lines l [] := ⟨Plain.nil.balanced, .inl rfl, Indented.noNl (by simp)⟩

theorem Lines.append {l : Nat} {s t : Text} (hs : Lines l s) (ht : Lines l t) : Lines l (s ++ t) := by
  refine ⟨hs.bal.append ht.bal, ?_, ?_⟩
  · rcases hs.start with rfl | ⟨u, rfl⟩
    · simpa using ht.start
    · exact .inr ⟨u ++ t, rfl⟩
  · intro a b e
    rcases List.append_eq_append_iff.mp e with ⟨u, rfl, hu⟩ | ⟨u, rfl, hu⟩
    · obtain ⟨k, rest, h1, h2, h3⟩ := ht.ind u b hu
      refine ⟨k, rest, h1, h2, ?_⟩
      rw [depth_append, hs.bal.closed]
      omega
    · cases u with
      | nil =>
        obtain ⟨k, rest, h1, h2, h3⟩ := ht.ind [] b (by simpa using hu.symm)
        refine ⟨k, rest, h1, h2, ?_⟩
        have := hs.bal.closed
        simp only [List.append_nil] at this
        rw [this, ← depth_nil]
        exact h3
      | cons d u =>
        rw [List.cons_append, List.cons.injEq] at hu
        obtain ⟨rfl, rfl⟩ := hu
        obtain ⟨k, rest, rfl, h2, h3⟩ := hs.ind a u rfl
        refine ⟨k, rest ++ t, by simp, ?_, ?_⟩
        · cases rest with
          | nil => rcases ht.start with rfl | ⟨u, rfl⟩ <;> simp
          | cons c rest => simpa using h2
        · cases rest with
          | nil => rcases ht.start with rfl | ⟨u, rfl⟩ <;> simpa using h3
          | cons c rest => simpa using h3

/-- A new line at level `l`, and nothing or a text on it. -/
theorem Lines.item {l : Nat} {t : Text} (ht : t = [] ∨ Blk l t) : Lines l ('\n' :: (List.replicate (2 * l) ' ' ++ t)) := by
  have hp := Plain.spaces (2 * l)
  have hd : depth ('\n' :: List.replicate (2 * l) ' ') = 0 := by
    show depth (['\n'] ++ List.replicate (2 * l) ' ') = 0
    rw [depth_append, hp.depth]; rfl
  have hnl : Balanced ['\n'] := ⟨rfl, fun a b e => by
    rcases List.append_eq_cons_iff.mp e.symm with ⟨rfl, _⟩ | ⟨u, rfl, hu⟩
    · decide
    · obtain ⟨rfl, rfl⟩ := List.append_eq_nil_iff.mp hu.symm; decide⟩
  refine ⟨?_, .inr ⟨_, rfl⟩, ?_⟩
  · have : Balanced t := by
      rcases ht with rfl | h
      · exact Plain.nil.balanced
      · exact h.bal
    exact hnl.append (hp.balanced.append this)
  · intro a b e
    rcases List.append_eq_cons_iff.mp e.symm with ⟨rfl, hb⟩ | ⟨a', rfl, ha⟩
    · rw [List.cons.injEq] at hb
      obtain ⟨_, rfl⟩ := hb
      refine ⟨2 * l, t, rfl, ?_, ?_⟩
      · rcases ht with rfl | h
        · simp
        · obtain ⟨c, u, rfl, h1, _, _⟩ := h.start; simpa using h1
      · rw [depth_nil]
        rcases ht with rfl | h
        · simp
        · obtain ⟨c, u, rfl, _, h2, _⟩ := h.start
          rw [if_neg (by simpa using h2)]; omega
    · obtain ⟨a'', rfl, ht'⟩ := plain_split hp ha
      rcases ht with rfl | h
      · simp at ht'
      · obtain ⟨k, rest, h1, h2, h3⟩ := h.ind a'' b ht'
        refine ⟨k, rest, h1, h2, ?_⟩
        rw [← List.cons_append, depth_append, hd]
        omega

/-- A line without breaks is a text on a line. -/
theorem Blk.ofLine {l : Nat} {t : Text} (hb : Balanced t) (hn : '\n' ∉ t)
    (hs : ∃ c u, t = c :: u ∧ c ≠ ' ' ∧ c ≠ '}' ∧ c ≠ '\n') : Blk l t := ⟨hb, hs, Indented.noNl hn⟩

/-- A name, ` {`, the lines of the next level, and `}` on its own line. -/
theorem Blk.block {l : Nat} {name t : Text} (hn : Plain name) (hs : ∃ c u, name = c :: u ∧ c ≠ ' ') (ht : Lines (l + 1) t) :
    Blk l (name ++ (' ' :: '{' :: (t ++ (('\n' :: List.replicate (2 * l) ' ') ++ ['}'])))) := by
  have hp := Plain.spaces (2 * l)
  have hnl : Balanced ('\n' :: List.replicate (2 * l) ' ') := by
    have := (Lines.item (l := l) (t := []) (.inl rfl)).bal
    simpa using this
  have hsp : Plain [' '] := by intro c h; rw [List.mem_singleton.mp h]; decide
  have hin := (ht.bal.append hnl).braces
  rw [List.append_assoc] at hin
  refine ⟨?_, ?_, ?_⟩
  · exact hn.balanced.append (hsp.balanced.append hin)
  · obtain ⟨c, u, rfl, hc⟩ := hs
    have := hn c (by simp)
    exact ⟨c, _, rfl, hc, this.2.2, this.1⟩
  · intro a b e
    obtain ⟨a1, rfl, e1⟩ := plain_split hn e
    obtain ⟨a2, rfl, e2⟩ : ∃ a2, a1 = ' ' :: '{' :: a2 ∧ t ++ (('\n' :: List.replicate (2 * l) ' ') ++ ['}']) = a2 ++ '\n' :: b := by
      cases a1 with
      | nil => simp at e1
      | cons x a1 =>
        cases a1 with
        | nil => simp at e1
        | cons y a1 =>
          rw [List.cons_append (a := x), List.cons.injEq, List.cons_append (a := y), List.cons.injEq] at e1
          exact ⟨a1, by rw [← e1.1, ← e1.2.1], e1.2.2⟩
    have hd : depth (name ++ ' ' :: '{' :: a2) = 1 + depth a2 := by
      rw [depth_append, hn.depth]
      show 0 + depth ([' ', '{'] ++ a2) = _
      rw [depth_append]
      show 0 + (1 + depth a2) = _
      omega
    rw [hd]
    rcases List.append_eq_append_iff.mp e2 with ⟨u, rfl, hu⟩ | ⟨u, rfl, hu⟩
    · rcases List.append_eq_cons_iff.mp hu.symm with ⟨rfl, hb⟩ | ⟨u', rfl, hu'⟩
      · rw [List.cons.injEq] at hb
        obtain ⟨_, rfl⟩ := hb
        refine ⟨2 * l, ['}'], rfl, by decide, ?_⟩
        rw [List.append_nil, ht.bal.closed, if_pos (by decide)]
        omega
      · obtain ⟨u'', rfl, hu''⟩ := plain_split hp hu'
        rcases List.append_eq_cons_iff.mp hu''.symm with ⟨_, h⟩ | ⟨v, _, h⟩
        · simp at h
        · simp at h
    · cases u with
      | nil =>
        rw [List.nil_append, List.cons_append, List.cons.injEq] at hu
        obtain ⟨_, rfl⟩ := hu
        refine ⟨2 * l, ['}'], rfl, by decide, ?_⟩
        have := ht.bal.closed
        rw [List.append_nil] at this
        rw [this, if_pos (by decide)]
        omega
      | cons d u =>
        rw [List.cons_append, List.cons.injEq] at hu
        obtain ⟨rfl, rfl⟩ := hu
        obtain ⟨k, rest, rfl, h2, h3⟩ := ht.ind a2 u rfl
        refine ⟨k, rest ++ (('\n' :: List.replicate (2 * l) ' ') ++ ['}']), by simp, ?_, ?_⟩
        · cases rest with
          | nil => simp
          | cons c rest => simpa using h2
        · cases rest with
          | nil => simp at h3 ⊢; omega
          | cons c rest =>
            have e1 : (c :: rest ++ (('\n' :: List.replicate (2 * l) ' ') ++ ['}'])).head? = (c :: rest).head? := rfl
            rw [e1, h3]
            generalize (if (c :: rest).head? = some '}' then (2 : Int) else 0) = z
            omega

/-! ### The combinators -/

/-- The levels `fdump` functions are called with: one line, or nested. -/
def Lev (l : Int) : Prop := l = -1 ∨ 0 ≤ l

theorem Lev.incr {l : Int} (h : Lev l) : Lev (indentIncr l) := by
  unfold Lev indentIncr at *
  split <;> omega

/-- Lines at level `l`, or on the same line if `l` is -1. -/
def LinesAt (l : Int) (t : Text) : Prop := (l = -1 ∧ Balanced t ∧ '\n' ∉ t) ∨ (∃ n : Nat, l = n ∧ Lines n t)

/-- A text on a line at level `l`, or without line breaks if `l` is -1. -/
def BlkAt (l : Int) (t : Text) : Prop := (l = -1 ∧ Balanced t ∧ '\n' ∉ t) ∨ (∃ n : Nat, l = n ∧ Blk n t)

def LinesD (l : Int) (d : Dump) : Prop := ∃ t, d = .val t ∧ LinesAt l t
def BlkD (l : Int) (d : Dump) : Prop := ∃ t, d = .val t ∧ BlkAt l t
/-- Nothing, or a text on a line. -/
def BlkD0 (l : Int) (d : Dump) : Prop := ∃ t, d = .val t ∧ (t = [] ∨ BlkAt l t)

theorem BlkD.zero {l : Int} {d : Dump} (h : BlkD l d) : BlkD0 l d := by
  obtain ⟨t, rfl, h⟩ := h
  exact ⟨t, rfl, .inr h⟩

theorem LinesAt.nil {l : Int} (h : Lev l) : LinesAt l [] := by
  rcases h with rfl | h
  · exact .inl ⟨rfl, Plain.nil.balanced, by simp⟩
  · exact .inr ⟨l.toNat, by omega, Lines.nil _⟩

theorem LinesAt.append {l : Int} {s t : Text} (hs : LinesAt l s) (ht : LinesAt l t) : LinesAt l (s ++ t) := by
  rcases hs with ⟨h, h1, h2⟩ | ⟨n, h, h1⟩ <;> rcases ht with ⟨h', h3, h4⟩ | ⟨m, h', h3⟩
  · exact .inl ⟨h, h1.append h3, by simp [h2, h4]⟩
  · omega
  · omega
  · obtain rfl : n = m := by omega
    exact .inr ⟨n, h, h1.append h3⟩

theorem indentText_nat (n : Nat) : indentText n = '\n' :: List.replicate (2 * n) ' ' := by
  have h1 : ((n : Int) = -1) = False := by simp only [eq_iff_iff, iff_false]; omega
  have h2 : (2 * (n : Int)).natAbs = 2 * n := by omega
  unfold indentText
  rw [if_neg (by omega), h2]

theorem LinesAt.item {l : Int} {t : Text} (hl : Lev l) (h : t = [] ∨ BlkAt l t) : LinesAt l (indentText l ++ t) := by
  rcases hl with rfl | hl
  · refine .inl ⟨rfl, ?_⟩
    have hp : Plain (indentText (-1)) := by
      intro c hc; rw [List.mem_singleton.mp hc]; decide
    have ht : Balanced t ∧ '\n' ∉ t := by
      rcases h with rfl | ⟨_, h⟩ | ⟨n, h, _⟩
      · exact ⟨Plain.nil.balanced, by simp⟩
      · exact h
      · omega
    exact ⟨hp.balanced.append ht.1, by simp [hp.noNl, ht.2]⟩
  · obtain ⟨n, rfl⟩ := Int.eq_ofNat_of_zero_le hl
    refine .inr ⟨n, rfl, ?_⟩
    rw [indentText_nat]
    refine Lines.item ?_
    rcases h with rfl | ⟨h, _⟩ | ⟨m, h, hb⟩
    · exact .inl rfl
    · omega
    · obtain rfl : n = m := by omega
      exact .inr hb

/-- A line without breaks that starts with something else than a space or a brace. -/
theorem BlkAt.ofLine {l : Int} {t : Text} (hl : Lev l) (hb : Balanced t) (hn : '\n' ∉ t)
    (hs : ∃ c u, t = c :: u ∧ c ≠ ' ' ∧ c ≠ '}' ∧ c ≠ '\n') : BlkAt l t := by
  rcases hl with rfl | hl
  · exact .inl ⟨rfl, hb, hn⟩
  · exact .inr ⟨l.toNat, by omega, Blk.ofLine hb hn hs⟩

/-- What the names of structures and fields look like. -/
def nameOk (s : String) : Bool :=
  s.toList.all (fun c => c != '\n' && c != '{' && c != '}') && (s.toList.head?.any (· != ' '))

theorem nameOk.plain {s : String} (h : nameOk s = true) : Plain s.toList := by
  unfold nameOk at h
  rw [Bool.and_eq_true, List.all_eq_true] at h
  intro c hc
  have := h.1 c hc
  simpa [and_assoc] using this

theorem nameOk.head {s : String} (h : nameOk s = true) : ∃ c u, s.toList = c :: u ∧ c ≠ ' ' := by
  unfold nameOk at h
  rw [Bool.and_eq_true] at h
  cases e : s.toList with
  | nil => rw [e] at h; simp at h
  | cons c u => rw [e] at h; exact ⟨c, u, rfl, by simpa using h.2⟩

theorem nameOk.start {s : String} (h : nameOk s = true) (r : Text) :
    ∃ c u, s.toList ++ r = c :: u ∧ c ≠ ' ' ∧ c ≠ '}' ∧ c ≠ '\n' := by
  obtain ⟨c, u, e, hc⟩ := nameOk.head h
  have := nameOk.plain h c (by simp [e])
  exact ⟨c, u ++ r, by rw [e]; rfl, hc, this.2.2, this.1⟩

theorem plain_decU (v : Nat) : Plain (decU v) := by
  intro c hc
  have := Nat.isDigit_of_mem_toDigits (by decide) (by decide) hc
  refine ⟨?_, ?_, ?_⟩ <;> rintro rfl <;> revert this <;> decide

theorem plain_decI (v : Int) : Plain (decI v) := by
  unfold decI
  split
  · exact Plain.cons (by decide) (plain_decU _)
  · exact plain_decU _

theorem linesD_nil {l : Int} (hl : Lev l) : LinesD l (cat []) := ⟨[], rfl, LinesAt.nil hl⟩

theorem linesD_cons {l : Int} {d : Dump} {ds : List Dump} (h : LinesD l d) (hs : LinesD l (cat ds)) : LinesD l (cat (d :: ds)) := by
  obtain ⟨s, rfl, h⟩ := h
  obtain ⟨t, e, hs⟩ := hs
  exact ⟨s ++ t, by unfold cat; rw [e]; rfl, h.append hs⟩

theorem linesD_when {l : Int} {c : Prop} [Decidable c] {ds : List Dump} (hl : Lev l) (h : c → LinesD l (cat ds)) :
    LinesD l (whenD c ds) := by
  unfold whenD
  split
  · exact h ‹_›
  · exact linesD_nil hl

theorem linesD_ite {l : Int} {c : Prop} [Decidable c] {d e : Dump} (h1 : c → LinesD l d) (h2 : ¬ c → LinesD l e) :
    LinesD l (if c then d else e) := by
  split
  · exact h1 ‹_›
  · exact h2 ‹_›

theorem linesD_fld {l : Int} {name : String} {t : Text} (hl : Lev l) (hn : nameOk name = true) (ht : Plain t) :
    LinesD l (fld l name t) := by
  refine ⟨_, rfl, LinesAt.item hl (.inr ?_)⟩
  have hp : Plain (name.toList ++ (':' :: ' ' :: t)) :=
    (nameOk.plain hn).append (Plain.cons (by decide) (Plain.cons (by decide) ht))
  exact BlkAt.ofLine hl hp.balanced hp.noNl (nameOk.start hn _)

theorem linesD_fldU {l : Int} {name : String} {v : Nat} (hl : Lev l) (hn : nameOk name = true) : LinesD l (fldU l name v) :=
  linesD_fld hl hn (plain_decU v)
theorem linesD_fldI {l : Int} {name : String} {v : Int} (hl : Lev l) (hn : nameOk name = true) : LinesD l (fldI l name v) :=
  linesD_fld hl hn (plain_decI v)
theorem linesD_fldIU {l : Int} {name : String} {v : Int} (hl : Lev l) (hn : nameOk name = true) : LinesD l (fldIU l name v) :=
  linesD_fld hl hn (plain_decU _)

theorem elems_ok {α : Type} {f : α → Text} (h : ∀ v, Balanced (f v) ∧ '\n' ∉ f v) (vs : List α) :
    Balanced (elems f vs) ∧ '\n' ∉ elems f vs := by
  induction vs with
  | nil => exact ⟨Plain.nil.balanced, by simp [elems]⟩
  | cons v vs ih =>
    have e : elems f (v :: vs) = [' '] ++ (f v ++ elems f vs) := by simp [elems]
    have hp : Plain [' '] := by intro c h; rw [List.mem_singleton.mp h]; decide
    rw [e]
    refine ⟨hp.balanced.append ((h v).1.append ih.1), ?_⟩
    simp only [List.mem_append, not_or]
    exact ⟨hp.noNl, (h v).2, ih.2⟩

theorem braces_ok {t : Text} (h : Balanced t ∧ '\n' ∉ t) : Balanced ('{' :: (t ++ [' ', '}'])) ∧ '\n' ∉ '{' :: (t ++ [' ', '}']) := by
  have hp : Plain [' '] := by intro c h; rw [List.mem_singleton.mp h]; decide
  have := (h.1.append hp.balanced).braces
  rw [List.append_assoc] at this
  exact ⟨this, by simp [h.2]⟩

theorem linesD_arr {α : Type} {l : Int} {name : String} {f : α → Text} {vs : List α} (hl : Lev l) (hn : nameOk name = true)
    (h : ∀ v, Balanced (f v) ∧ '\n' ∉ f v) : LinesD l (arr l name f vs) := by
  refine ⟨_, rfl, LinesAt.item hl (.inr ?_)⟩
  have hp : Plain [' '] := by intro c h; rw [List.mem_singleton.mp h]; decide
  have hb := braces_ok (elems_ok h vs)
  have h1 := (nameOk.plain hn).balanced.append (hp.balanced.append hb.1)
  refine BlkAt.ofLine hl h1 ?_ (nameOk.start hn _)
  intro hm
  rcases List.mem_append.mp hm with hm | hm
  · exact (nameOk.plain hn).noNl hm
  · rcases List.mem_cons.mp hm with hm | hm
    · exact absurd hm (by decide)
    · exact hb.2 hm

theorem linesD_arrU {l : Int} {name : String} {vs : List Nat} (hl : Lev l) (hn : nameOk name = true) : LinesD l (arrU l name vs) :=
  linesD_arr hl hn fun v => ⟨(plain_decU v).balanced, (plain_decU v).noNl⟩
theorem linesD_arrI {l : Int} {name : String} {vs : List Int} (hl : Lev l) (hn : nameOk name = true) : LinesD l (arrI l name vs) :=
  linesD_arr hl hn fun v => ⟨(plain_decI v).balanced, (plain_decI v).noNl⟩
theorem linesD_arr2 {l : Int} {name : String} {vs : List (List Int)} (hl : Lev l) (hn : nameOk name = true) :
    LinesD l (arr2 l name vs) :=
  linesD_arr hl hn fun v => braces_ok (elems_ok (fun v => ⟨(plain_decI v).balanced, (plain_decI v).noNl⟩) v)

theorem linesD_item {l : Int} {d : Dump} (hl : Lev l) (h : BlkD0 l d) : LinesD l (item l d) := by
  obtain ⟨t, rfl, h⟩ := h
  exact ⟨_, rfl, LinesAt.item hl h⟩

theorem linesD_checked {α : Type} {l : Int} {p : Option α} {f : α → Dump} (hl : Lev l) (h : ∀ x, p = some x → LinesD l (f x)) :
    LinesD l (checked p f) := by
  cases p with
  | none => exact linesD_nil hl
  | some x => exact h x rfl

theorem blkD0_checked {α : Type} {l : Int} {p : Option α} {f : α → Dump} (h : ∀ x, p = some x → BlkD l (f x)) :
    BlkD0 l (checked p f) := by
  cases p with
  | none => exact ⟨[], rfl, .inl rfl⟩
  | some x => exact (h x rfl).zero

theorem blkD_deref {α : Type} {l : Int} {p : Option α} {f : α → Dump} (hp : ∃ x, p = some x ∧ BlkD l (f x)) :
    BlkD l (deref p f) := by
  obtain ⟨x, rfl, h⟩ := hp
  exact h

theorem blkD_block {l : Int} {name : String} {body : Int → List Dump} (hl : Lev l) (hn : nameOk name = true)
    (h : LinesD (indentIncr l) (cat (body (indentIncr l)))) : BlkD l (block name l body) := by
  obtain ⟨t, e, ht⟩ := h
  refine ⟨_, by unfold block; rw [e]; rfl, ?_⟩
  rcases hl with rfl | hl
  · refine .inl ⟨rfl, ?_⟩
    have ht : Balanced t ∧ '\n' ∉ t := by
      rcases ht with ⟨_, h⟩ | ⟨n, h, _⟩
      · exact h
      · exact absurd h (by show ¬ ((-1 : Int) = n); omega)
    have hb := braces_ok ht
    have hp : Plain [' '] := by intro c h; rw [List.mem_singleton.mp h]; decide
    have h1 := (nameOk.plain hn).balanced.append (hp.balanced.append hb.1)
    refine ⟨h1, ?_⟩
    intro hm
    rcases List.mem_append.mp hm with hm | hm
    · exact (nameOk.plain hn).noNl hm
    · rcases List.mem_cons.mp hm with hm | hm
      · exact absurd hm (by decide)
      · exact hb.2 hm
  · obtain ⟨n, rfl⟩ := Int.eq_ofNat_of_zero_le hl
    have hi : indentIncr (n : Int) = ((n + 1 : Nat) : Int) := by
      unfold indentIncr; rw [if_neg (by omega)]; rfl
    have hd : indentDecr ((n + 1 : Nat) : Int) = (n : Int) := by
      unfold indentDecr; rw [if_neg (by omega)]; omega
    rw [hi] at ht ⊢
    rw [hd, indentText_nat]
    refine .inr ⟨n, rfl, ?_⟩
    have ht : Lines (n + 1) t := by
      rcases ht with ⟨h, _⟩ | ⟨m, h, ht⟩
      · omega
      · obtain rfl : n + 1 = m := by omega
        exact ht
    exact Blk.block (nameOk.plain hn) (nameOk.head hn) ht

/-- Goes through the statements of an `fdump` function. -/
macro "dump" : tactic => `(tactic| repeat' (first
  | exact linesD_nil ‹Lev _›
  | exact linesD_fldU ‹Lev _› (by decide +kernel)
  | exact linesD_arrU ‹Lev _› (by decide +kernel)
  | exact linesD_fldI ‹Lev _› (by decide +kernel)
  | exact linesD_fldIU ‹Lev _› (by decide +kernel)
  | exact linesD_arrI ‹Lev _› (by decide +kernel)
  | exact linesD_arr2 ‹Lev _› (by decide +kernel)
  | refine linesD_cons ?_ ?_
  | (refine linesD_when ‹Lev _› ?_; intro _)
  | (refine linesD_ite ?_ ?_ <;> intro _)))

/-- The frame of an `fdump` function, and what is in it. -/
macro "dumpBlock" h:ident : tactic => `(tactic| (
  refine blkD_block $h (by decide +kernel) ?_
  have := Lev.incr $h
  generalize indentIncr _ = l at this ⊢
  dump))

end H264
