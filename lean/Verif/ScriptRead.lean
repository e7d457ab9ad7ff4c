import Verif.ScriptLemmas
import Verif.Spec.SplitScript

/-
What the script reads from the text of NAL units (Spec/DumpItems.lean).
-/

namespace H264.Script
open H264.Shown

/-! ### Splitting at the beginnings of lines -/

/-- No line begins with `n`; `bol` says whether the text begins at the beginning of a line. -/
def tame : Bool → List Char → Bool
  | _, [] => true
  | bol, c :: t => (!bol || c != 'n') && tame (c == '\n') t

/-- Whether the text ends with a line break. -/
def after : Bool → List Char → Bool
  | bol, [] => bol
  | _, c :: t => after (c == '\n') t

theorem splitGo_tame {lit : List Char} (hl : ∃ l, lit = 'n' :: l) {u : List Char} {bol : Bool} (h : tame bol u = true) (r : List Char) :
    splitGo lit 0 bol (u ++ r) = (u ++ (splitGo lit 0 (after bol u) r).1, (splitGo lit 0 (after bol u) r).2) := by
  induction u generalizing bol with
  | nil => rfl
  | cons c u ih =>
    simp only [tame, Bool.and_eq_true] at h
    obtain ⟨l, rfl⟩ := hl
    rw [List.cons_append, splitGo, if_neg, ih h.2]
    · rfl
    · intro hx
      simp only [Bool.and_eq_true, List.isPrefixOf_iff_prefix, List.cons_prefix_cons] at hx
      have := h.1
      rw [hx.1, ← hx.2.1] at this
      revert this; decide

/-- From the middle of a line to the middle of a line, with no line that begins with `n`. -/
def Tame (u : List Char) : Prop := tame false u = true ∧ after false u = false

theorem tame_append {a b : List Char} {x : Bool} : tame x (a ++ b) = (tame x a && tame (after x a) b) := by
  induction a generalizing x with
  | nil => simp [tame, after]
  | cons c a ih => rw [List.cons_append, tame, tame, after, ih, Bool.and_assoc]
theorem after_append {a b : List Char} {x : Bool} : after x (a ++ b) = after (after x a) b := by
  induction a generalizing x with
  | nil => rfl
  | cons c a ih => rw [List.cons_append, after, after, ih]
theorem Tame.append {a b : List Char} (ha : Tame a) (hb : Tame b) : Tame (a ++ b) := by
  unfold Tame
  rw [tame_append, after_append, ha.1, ha.2, hb.1, hb.2]
  exact ⟨rfl, rfl⟩
theorem tame_nil : Tame [] := ⟨rfl, rfl⟩
theorem tame_line {u : List Char} (h : '\n' ∉ u) : Tame u := by
  induction u with
  | nil => exact tame_nil
  | cons c u ih =>
    have hc : (c == '\n') = false := by
      rw [beq_eq_false_iff_ne]
      rintro rfl
      exact h (by simp)
    obtain ⟨h1, h2⟩ := ih fun hx => h (by simp [hx])
    unfold Tame
    rw [tame, after, hc, h1, h2]
    exact ⟨rfl, rfl⟩
theorem tame_spaces (n : Nat) : tame true (List.replicate n ' ') = true ∧ after true (List.replicate (n + 1) ' ') = false := by
  have h : ∀ n, '\n' ∉ List.replicate n ' ' := by
    intro n hx
    have := List.eq_of_mem_replicate hx
    revert this; decide
  have h1 := tame_line (h n)
  constructor
  · cases n with
    | zero => rfl
    | succ n =>
      have := (tame_line (h n)).1
      rw [List.replicate_succ, tame]
      exact this
  · rw [List.replicate_succ, after]
    exact h1.2
theorem tame_newLine {l : Int} (h : 1 ≤ l) : Tame (newLine l) := by
  unfold newLine
  rw [if_neg (by omega)]
  obtain ⟨k, hk⟩ : ∃ k, 2 * l.toNat = k + 1 := ⟨2 * l.toNat - 1, by omega⟩
  unfold Tame
  rw [tame, after, hk]
  exact ⟨(tame_spaces (k + 1)).1, (tame_spaces k).2⟩
theorem tame_word {w : List Char} (h : goodWord w = true) : Tame w := tame_line (goodWord_line h)
theorem tame_spaced {vs : List (List Char)} (h : ∀ v ∈ vs, Tame v) : Tame (spaced vs) := by
  induction vs with
  | nil => exact tame_nil
  | cons v vs ih =>
    have e : spaced (v :: vs) = [' '] ++ (v ++ spaced vs) := by simp [spaced]
    rw [e]
    exact (tame_line (by decide)).append ((h v (by simp)).append (ih fun w hw => h w (by simp [hw])))

theorem deeper_pos {l : Int} (h : 0 ≤ l) : 1 ≤ deeper l := by
  unfold deeper
  rw [if_neg (by omega)]
  omega

mutual
theorem tame_text {l : Int} (hl : 1 ≤ l) : ∀ (i : Item), Good i → Tame (text l i)
  | .field name value, h => by
    rw [text]
    rw [Good] at h
    exact ((tame_word h.1).append (tame_line (by decide))).append (tame_line h.2.2)
  | .values name vs, h => by
    rw [text]
    rw [Good] at h
    exact (((tame_word h.1).append (tame_line (by decide))).append (tame_spaced fun v hv => tame_word (h.2 v hv))).append (tame_line (by decide))
  | .rows name vs, h => by
    rw [text]
    rw [Good] at h
    refine (((tame_word h.1).append (tame_line (by decide))).append (tame_spaced fun v hv => ?_)).append (tame_line (by decide))
    rw [List.mem_map] at hv
    obtain ⟨w, hw, rfl⟩ := hv
    exact ((tame_line (by decide)).append (tame_spaced fun x hx => tame_word (h.2 w hw x hx))).append (tame_line (by decide))
  | .group name items, h => by
    rw [text]
    rw [Good] at h
    exact ((((tame_word h.1).append (tame_line (by decide))).append (tame_lines (deeper_pos (by omega)) items h.2)).append
      (tame_newLine hl)).append (tame_line (by decide))
  | .joined name items, h => by
    rw [text]
    rw [Good] at h
    exact ((((tame_word h.1).append (tame_line (by decide))).append (tame_lines (deeper_pos (by omega)) items h.2)).append
      (tame_newLine hl)).append (tame_line (by decide))
  | .blank, _ => by rw [text]; exact tame_nil
theorem tame_lines {l : Int} (hl : 1 ≤ l) : ∀ (is : List Item), Goods is → Tame (lines l is)
  | [], _ => by rw [lines]; exact tame_nil
  | i :: is, h => by
    rw [Goods] at h
    have h1 := tame_text hl i h.1
    have h2 := tame_lines hl is h.2.1
    cases i with
    | joined name items => rw [lines]; exact h1.append h2
    | _ => rw [lines]; exact ((tame_newLine hl).append h1).append h2
end

/-- The text of a NAL unit without its first word. -/
def unitBody (is : List Item) : List Char := lines 1 is ++ "\n}\n".toList

theorem unit_text (is : List Item) : text 0 (.group "nal_unit" is) ++ ['\n'] = "nal_unit {".toList ++ unitBody is := by
  rw [text, unitBody]
  simp [newLine, deeper]

theorem split_one {is : List Item} (h : Goods is) (r : List Char) :
    splitGo "nal_unit {".toList 0 true ("nal_unit {".toList ++ unitBody is ++ r) =
      ([], (unitBody is ++ (splitGo "nal_unit {".toList 0 true r).1) :: (splitGo "nal_unit {".toList 0 true r).2) := by
  have e : "nal_unit {".toList = ['n', 'a', 'l', '_', 'u', 'n', 'i', 't', ' ', '{'] := by decide
  have ht : tame false (unitBody is) = true ∧ after false (unitBody is) = true := by
    unfold unitBody
    have := tame_lines (l := 1) (by decide) is h
    rw [tame_append, after_append, this.1, this.2]
    decide
  have hs := splitGo_tame (lit := "nal_unit {".toList) ⟨_, e⟩ ht.1 r
  rw [ht.2] at hs
  rw [List.append_assoc]
  generalize unitBody is = b at *
  rw [e] at *
  have hp : List.isPrefixOf ['n', 'a', 'l', '_', 'u', 'n', 'i', 't', ' ', '{'] ('n' :: 'a' :: 'l' :: '_' :: 'u' :: 'n' :: 'i' :: 't' :: ' ' :: '{' :: (b ++ r)) = true := by
    rw [List.isPrefixOf_iff_prefix]; exact List.prefix_append _ _
  simp only [List.cons_append, List.nil_append, splitGo, hp, Bool.and_true, if_true, List.length_cons, List.length_nil]
  rw [show ('{' == '\n') = false by decide, hs]

theorem split_units (ds : List (List Item)) (h : ∀ is ∈ ds, Goods is) :
    splitGo "nal_unit {".toList 0 true (ds.flatMap fun is => text 0 (.group "nal_unit" is) ++ ['\n']) = ([], ds.map unitBody) := by
  induction ds with
  | nil => rfl
  | cons is ds ih =>
    rw [List.flatMap_cons, unit_text, split_one (h is (by simp)), ih fun x hx => h x (by simp [hx])]
    simp

/-! ### Numbers -/

theorem cls_plain {cls : Char → Bool} (h : cls ' ' = false ∧ cls '\n' = false ∧ cls '{' = false ∧ cls '}' = false) (c : Char) (hc : cls c = true) :
    plainChar c = true := by
  simp only [plainChar, Bool.and_eq_true, bne_iff_ne]
  refine ⟨⟨⟨?_, ?_⟩, ?_⟩, ?_⟩ <;> (rintro rfl; simp_all)

theorem toDigits_props {b : Nat} (hb : 1 < b) (hb' : b ≤ 16) (v : Nat) :
    number b (Nat.toDigits b v) = v ∧ (∀ c ∈ Nat.toDigits b v, isHex c = true) ∧ (b ≤ 10 → ∀ c ∈ Nat.toDigits b v, isDec c = true) := by
  have h16 : ∀ n < 16, digit n.digitChar = n ∧ isHex n.digitChar = true := by decide
  have h10 : ∀ n < 10, isDec n.digitChar = true := by decide
  induction v using Nat.strongRecOn with
  | ind v ih =>
    rw [Nat.toDigits_eq_if hb]
    split
    · refine ⟨?_, ?_, ?_⟩
      · show b * 0 + digit v.digitChar = v
        rw [(h16 v (by omega)).1]; omega
      · intro c hc
        rw [List.mem_singleton.mp hc]
        exact (h16 v (by omega)).2
      · intro _ c hc
        rw [List.mem_singleton.mp hc]
        exact h10 v (by omega)
    · have hlt : v / b < v := Nat.div_lt_self (by omega) hb
      have hm := Nat.mod_lt v (show b > 0 by omega)
      obtain ⟨i1, i2, i3⟩ := ih _ hlt
      refine ⟨?_, ?_, ?_⟩
      · unfold number at i1 ⊢
        rw [List.foldl_append, i1]
        show b * (v / b) + digit (v % b).digitChar = v
        rw [(h16 _ (by omega)).1]
        exact Nat.div_add_mod v b
      · intro c hc
        rw [List.mem_append] at hc
        rcases hc with hc | hc
        · exact i2 c hc
        · rw [List.mem_singleton.mp hc]
          exact (h16 _ (by omega)).2
      · intro h c hc
        rw [List.mem_append] at hc
        rcases hc with hc | hc
        · exact i3 h c hc
        · rw [List.mem_singleton.mp hc]
          exact h10 _ (by omega)

theorem takeWhile_all {cls : Char → Bool} {l : List Char} (h : ∀ c ∈ l, cls c = true) : l.takeWhile cls = l := by
  induction l with
  | nil => rfl
  | cons c l ih => rw [List.takeWhile_cons, if_pos (h c (by simp)), ih fun x hx => h x (by simp [hx])]

theorem number_nat (v : Nat) : (toString v).toList.takeWhile isDec = (toString v).toList ∧ number 10 (toString v).toList = v ∧ (toString v).toList ≠ [] := by
  have e : (toString v).toList = Nat.toDigits 10 v := by simp [toString, Nat.repr]
  obtain ⟨h1, _, h3⟩ := toDigits_props (b := 10) (by decide) (by decide) v
  rw [e]
  exact ⟨takeWhile_all (h3 (by decide)), h1, (toDigits_word 10 (by decide) (by decide) v).2⟩

theorem number_hex (v : Nat) : ∃ g, hex v = "0x".toList ++ g ∧ g.takeWhile isHex = g ∧ number 16 g = v ∧ g ≠ [] := by
  obtain ⟨h1, h2, _⟩ := toDigits_props (b := 16) (by decide) (by decide) v
  refine ⟨List.leftpad 8 '0' (Nat.toDigits 16 v), rfl, ?_, ?_, ?_⟩
  · refine takeWhile_all fun c hc => ?_
    unfold List.leftpad at hc
    rw [List.mem_append] at hc
    rcases hc with hc | hc
    · rw [List.eq_of_mem_replicate hc]; decide
    · exact h2 c hc
  · unfold List.leftpad number
    rw [List.foldl_append]
    have : ∀ n, (List.replicate n '0').foldl (fun v c => 16 * v + digit c) 0 = 0 := by
      intro n
      induction n with
      | zero => rfl
      | succ n ih => rw [List.replicate_succ, List.foldl_cons]; exact ih
    rw [this]
    exact h1
  · have := (toDigits_word 16 (by decide) (by decide) v).2
    unfold List.leftpad
    simp [this]

/-! ### The searches -/

theorem key_offset : Key "offset".toList "0x".toList isHex := ⟨by decide, by decide, by decide, cls_plain (by decide)⟩
theorem key_length : Key "length".toList [] isDec := ⟨by decide, by decide, by decide, cls_plain (by decide)⟩
theorem key_type : Key "nal_unit_type".toList [] isDec := ⟨by decide, by decide, by decide, cls_plain (by decide)⟩
theorem key_width : Key "width".toList [] isDec := ⟨by decide, by decide, by decide, cls_plain (by decide)⟩
theorem key_height : Key "height".toList [] isDec := ⟨by decide, by decide, by decide, cls_plain (by decide)⟩

section
variable {key ext : List Char} {cls : Char → Bool}

theorem foundIn_append (a b : List Item) : foundIn key ext cls (a ++ b) = (foundIn key ext cls a).or (foundIn key ext cls b) := by
  induction a with
  | nil => simp [foundIn]
  | cons i a ih => rw [List.cons_append, foundIn, foundIn, ih, Option.or_assoc]

theorem foundIn_cons (a : List Item) (bs : List (List Item)) :
    foundIn key ext cls (a :: bs).flatten = (foundIn key ext cls a).or (foundIn key ext cls bs.flatten) := by
  rw [List.flatten_cons, foundIn_append]

theorem foundIn_step {a : List Item} {bs : List (List Item)} (h : foundIn key ext cls a = none) :
    foundIn key ext cls (a :: bs).flatten = foundIn key ext cls bs.flatten := by rw [foundIn_cons, h]; rfl

theorem foundIn_first {a : List Item} {bs : List (List Item)} {g : List Char} (h : foundIn key ext cls a = some g) :
    foundIn key ext cls (a :: bs).flatten = some g := by rw [foundIn_cons, h]; rfl

theorem foundIn_one (i : Item) : foundIn key ext cls [i] = found key ext cls i := by simp [foundIn]

theorem found_struct (name : String) (is : List (List Item)) : found key ext cls (struct name is) = foundIn key ext cls is.flatten := by
  rw [struct, found]

theorem skip_nil : foundIn key ext cls [].flatten = none := by rw [List.flatten_nil, foundIn]
theorem skip_cons {a : List Item} {bs : List (List Item)} (h : foundIn key ext cls a = none) (hs : foundIn key ext cls bs.flatten = none) :
    foundIn key ext cls (a :: bs).flatten = none := by rw [foundIn_step h, hs]
theorem skip_opt {c : Prop} [Decidable c] {is : List (List Item)} (h : foundIn key ext cls is.flatten = none) :
    foundIn key ext cls (Shown.opt c is) = none := by
  unfold Shown.opt
  split
  · exact h
  · rfl
theorem skip_field {name : String} {v : List Char} (h : key.isSuffixOf name.toList = false) : foundIn key ext cls [.field name v] = none := by
  rw [foundIn_one, found, hit, h]
  rfl
theorem skip_nat {name : String} {v : Nat} (h : key.isSuffixOf name.toList = false) : foundIn key ext cls (nat name v) = none := skip_field h
theorem skip_int {name : String} {v : Int} (h : key.isSuffixOf name.toList = false) : foundIn key ext cls (int name v) = none := skip_field h
theorem skip_mod32 {name : String} {v : Int} (h : key.isSuffixOf name.toList = false) : foundIn key ext cls (mod32 name v) = none := skip_field h
theorem skip_nats {name : String} {vs : List Nat} : foundIn key ext cls (nats name vs) = none := by rw [nats, foundIn_one, found]
theorem skip_ints {name : String} {vs : List Int} : foundIn key ext cls (ints name vs) = none := by rw [ints, foundIn_one, found]
theorem skip_intRows {name : String} {vs : List (List Int)} : foundIn key ext cls (intRows name vs) = none := by rw [intRows, foundIn_one, found]
theorem skip_part {α : Type} {x : Option α} {f : α → Item} (h : ∀ a, found key ext cls (f a) = none) : foundIn key ext cls (part x f) = none := by
  cases x with
  | none => rfl
  | some a => rw [part, foundIn_one, h]
theorem hit_nat {name : String} {v : Nat} (h : key.isSuffixOf name.toList = true) :
    foundIn key [] isDec (nat name v) = some (toString v).toList := by
  obtain ⟨h1, _, h3⟩ := number_nat v
  rw [nat, foundIn_one, found, hit]
  rw [List.length_nil, List.drop_zero, h1, h]
  simp
theorem hit_hex {name : String} {v : Nat} (h : key.isSuffixOf name.toList = true) :
    ∃ g, foundIn key "0x".toList isHex [.field name (hex v)] = some g ∧ number 16 g = v := by
  obtain ⟨g, e, h1, h2, h3⟩ := number_hex v
  refine ⟨g, ?_, h2⟩
  rw [foundIn_one, found, hit, e, List.drop_left, h1, h]
  rw [show List.isPrefixOf "0x".toList ("0x".toList ++ g) = true from List.isPrefixOf_iff_prefix.mpr (List.prefix_append _ _)]
  simp [h3]
end

/-- Shows that a search finds nothing. -/
macro "skip_items" : tactic => `(tactic| repeat' (first
  | with_reducible exact skip_nil
  | with_reducible refine skip_cons ?_ ?_
  | with_reducible refine skip_opt ?_
  | (with_reducible refine skip_nat ?_; decide +kernel)
  | (with_reducible refine skip_int ?_; decide +kernel)
  | (with_reducible refine skip_mod32 ?_; decide +kernel)
  | (with_reducible refine skip_field ?_; decide +kernel)
  | with_reducible exact skip_nats
  | with_reducible exact skip_ints
  | with_reducible exact skip_intRows))

/-- Goes past the items in which a search finds nothing. -/
macro "pass" : tactic => `(tactic| repeat (with_reducible refine Eq.trans (foundIn_step ?h) ?_; case h => (skip_items; done)))

theorem hrd_skip {key ext : List Char} {cls : Char → Bool} (hk : key = "width".toList ∨ key = "height".toList) (x : Hrd) : found key ext cls (hrdItem x) = none := by
  rcases hk with rfl | rfl <;> (unfold hrdItem; rw [found_struct]; skip_items)

theorem vui_width (x : Vui) : found "width".toList [] isDec (vuiItem x) =
    if x.aspect_ratio_info_present_flag = 1 ∧ x.aspect_ratio_idc = 255 then some (toString x.sar_width).toList else none := by
  unfold vuiItem
  rw [found_struct]
  pass
  by_cases h1 : x.aspect_ratio_info_present_flag = 1
  · by_cases h2 : x.aspect_ratio_idc = 255
    · rw [if_pos ⟨h1, h2⟩]
      refine foundIn_first ?_
      rw [Shown.opt, if_pos h1]
      pass
      refine foundIn_first ?_
      rw [Shown.opt, if_pos h2]
      exact foundIn_first (hit_nat (by decide +kernel))
    · rw [if_neg (fun h => h2 h.2)]
      refine skip_cons ?_ ?_
      · rw [Shown.opt, if_pos h1, Shown.opt, if_neg h2]
        skip_items
        rfl
      · skip_items
        all_goals exact skip_part (hrd_skip (.inl rfl))
  · rw [if_neg (fun h => h1 h.1)]
    refine skip_cons ?_ ?_
    · rw [Shown.opt, if_neg h1]
      rfl
    · skip_items
      all_goals exact skip_part (hrd_skip (.inl rfl))

theorem vui_height (x : Vui) : found "height".toList [] isDec (vuiItem x) =
    if x.aspect_ratio_info_present_flag = 1 ∧ x.aspect_ratio_idc = 255 then some (toString x.sar_height).toList else none := by
  unfold vuiItem
  rw [found_struct]
  pass
  by_cases h1 : x.aspect_ratio_info_present_flag = 1
  · by_cases h2 : x.aspect_ratio_idc = 255
    · rw [if_pos ⟨h1, h2⟩]
      refine foundIn_first ?_
      rw [Shown.opt, if_pos h1]
      pass
      refine foundIn_first ?_
      rw [Shown.opt, if_pos h2]
      pass
      exact foundIn_first (hit_nat (by decide +kernel))
    · rw [if_neg (fun h => h2 h.2)]
      refine skip_cons ?_ ?_
      · rw [Shown.opt, if_pos h1, Shown.opt, if_neg h2]
        skip_items
        rfl
      · skip_items
        all_goals exact skip_part (hrd_skip (.inr rfl))
  · rw [if_neg (fun h => h1 h.1)]
    refine skip_cons ?_ ?_
    · rw [Shown.opt, if_neg h1]
      rfl
    · skip_items
      all_goals exact skip_part (hrd_skip (.inr rfl))

/-- What the script takes for the resolution. -/
def readAs (x : SpsData) : Nat × Nat := (Spec.sampleAspect x).getD (Spec.resolutionOf x)

theorem sps_width {opts : ParsingOptions} (ho : opts.add_resolution = true) (x : SpsData) :
    found "width".toList [] isDec (spsDataItem opts x) = some (toString (readAs x).1).toList := by
  unfold spsDataItem
  rw [found_struct]
  pass
  rw [foundIn_cons]
  have hv : foundIn "width".toList [] isDec (Shown.opt (x.vui_parameters_present_flag = 1) [part x.vui_parameters vuiItem]) =
      (Spec.sampleAspect x).map fun r => (toString r.1).toList := by
    unfold Spec.sampleAspect Shown.opt
    by_cases h1 : x.vui_parameters_present_flag = 1
    · rw [if_pos h1, if_pos h1]
      cases x.vui_parameters with
      | none => rfl
      | some y =>
        simp only [List.flatten_cons, List.flatten_nil, List.append_nil, part]
        rw [foundIn_one, vui_width]
        split <;> rfl
    · rw [if_neg h1, if_neg h1]
      rfl
  rw [hv]
  unfold readAs
  cases Spec.sampleAspect x with
  | some r => rfl
  | none =>
    refine foundIn_first ?_
    rw [Shown.opt, if_pos ho]
    pass
    exact foundIn_first (hit_nat (by decide +kernel))

theorem sps_height {opts : ParsingOptions} (ho : opts.add_resolution = true) (x : SpsData) :
    found "height".toList [] isDec (spsDataItem opts x) = some (toString (readAs x).2).toList := by
  unfold spsDataItem
  rw [found_struct]
  pass
  rw [foundIn_cons]
  have hv : foundIn "height".toList [] isDec (Shown.opt (x.vui_parameters_present_flag = 1) [part x.vui_parameters vuiItem]) =
      (Spec.sampleAspect x).map fun r => (toString r.2).toList := by
    unfold Spec.sampleAspect Shown.opt
    by_cases h1 : x.vui_parameters_present_flag = 1
    · rw [if_pos h1, if_pos h1]
      cases x.vui_parameters with
      | none => rfl
      | some y =>
        simp only [List.flatten_cons, List.flatten_nil, List.append_nil, part]
        rw [foundIn_one, vui_height]
        split <;> rfl
    · rw [if_neg h1, if_neg h1]
      rfl
  rw [hv]
  unfold readAs
  cases Spec.sampleAspect x with
  | some r => rfl
  | none =>
    refine foundIn_first ?_
    rw [Shown.opt, if_pos ho]
    pass
    exact foundIn_first (hit_nat (by decide +kernel))

/-- The options of the tool in the script. -/
theorem opts_eq : toolOptions toolArgs =
    { add_offset := true, add_length := true, add_parsed_length := false, add_checksum := false, add_resolution := true } := by decide

/-- The items of a NAL unit. -/
def unitItems (σ : Store) (x : NalUnit) : List Item := [
  [.field "offset" (hex x.offset)],
  nat "length" x.length,
  [headerItem x.nal_unit_header],
  [payloadItem σ (toolOptions toolArgs) x.nal_unit_header x.nal_unit_payload]].flatten

theorem nalUnitItem_eq (σ : Store) (bytes : List UInt8) (x : NalUnit) :
    nalUnitItem σ (toolOptions toolArgs) bytes x = .group "nal_unit" (unitItems σ x) := by
  unfold nalUnitItem unitItems struct
  rw [opts_eq]
  simp [Shown.opt]

theorem search_body {key ext : List Char} {cls : Char → Bool} (hk : Key key ext cls) {is : List Item} (h : Goods is)
    (hn : search (lit key ext) cls "\n}\n".toList = none) : search (lit key ext) cls (unitBody is) = foundIn key ext cls is := by
  rw [unitBody, search_lines hk 1 is h "\n}\n".toList (by unfold Brk; decide), hn, Option.or_none]

theorem unit_goods (σ : Store) (x : NalUnit) : Goods (unitItems σ x) := by
  have := nalUnit_good σ (toolOptions toolArgs) [] x
  rw [nalUnitItem_eq, Good] at this
  exact this.2

theorem read_offset (σ : Store) (x : NalUnit) : (search "offset: 0x".toList isHex (unitBody (unitItems σ x))).map (number 16) = some x.offset := by
  have e : "offset: 0x".toList = lit "offset".toList "0x".toList := by decide
  rw [e, search_body key_offset (unit_goods σ x) (by decide)]
  obtain ⟨g, h1, h2⟩ := hit_hex (key := "offset".toList) (name := "offset") (v := x.offset) (by decide)
  rw [unitItems, foundIn_first h1, Option.map_some, h2]

theorem read_length (σ : Store) (x : NalUnit) : (search "length: ".toList isDec (unitBody (unitItems σ x))).map (number 10) = some x.length := by
  have e : "length: ".toList = lit "length".toList [] := by decide
  rw [e, search_body key_length (unit_goods σ x) (by decide), unitItems, foundIn_step (skip_field (by decide)),
    foundIn_first (hit_nat (by decide)), Option.map_some, (number_nat _).2.1]

theorem header_found {key : List Char} (h : key = "nal_unit_type".toList) (n : NalHeader) :
    found key [] isDec (headerItem n) = some (toString n.nal_unit_type).toList := by
  subst h
  unfold headerItem
  rw [found_struct]
  pass
  exact foundIn_first (hit_nat (by decide))

theorem read_type (σ : Store) (x : NalUnit) :
    (search "nal_unit_type: ".toList isDec (unitBody (unitItems σ x))).map (number 10) = some x.nal_unit_header.nal_unit_type := by
  have e : "nal_unit_type: ".toList = lit "nal_unit_type".toList [] := by decide
  rw [e, search_body key_type (unit_goods σ x) (by decide), unitItems, foundIn_step (skip_field (by decide)), foundIn_step (skip_nat (by decide)),
    foundIn_first (g := (toString x.nal_unit_header.nal_unit_type).toList) (by rw [foundIn_one]; exact header_found rfl _),
    Option.map_some, (number_nat _).2.1]

theorem svc_skip {key : List Char} (hk : key = "width".toList ∨ key = "height".toList) (n : SvcHeaderExt) :
    found key [] isDec (svcHeaderItem n) = none := by
  rcases hk with rfl | rfl <;> (unfold svcHeaderItem; rw [found_struct]; skip_items)

theorem header_skip {key : List Char} (hk : key = "width".toList ∨ key = "height".toList) (n : NalHeader) :
    found key [] isDec (headerItem n) = none := by
  have h2 := svc_skip hk
  rcases hk with rfl | rfl <;> (unfold headerItem; rw [found_struct]; skip_items; exact skip_part h2)

theorem payload_found (σ : Store) {x : NalUnit} (h7 : x.nal_unit_header.nal_unit_type = 7) {key : List Char}
    (hk : key = "width".toList ∨ key = "height".toList) : foundIn key [] isDec (unitItems σ x) =
      match x.nal_unit_payload.sps with
      | some s => found key [] isDec (spsDataItem (toolOptions toolArgs) s)
      | none => none := by
  have e1 : foundIn key [] isDec [Item.field "offset" (hex x.offset)] = none := by rcases hk with rfl | rfl <;> exact skip_field (by decide)
  have e2 : foundIn key [] isDec (nat "length" x.length) = none := by rcases hk with rfl | rfl <;> exact skip_nat (by decide)
  rw [unitItems, foundIn_step e1, foundIn_step e2, foundIn_step (by rw [foundIn_one]; exact header_skip hk _)]
  rw [List.flatten_cons, List.flatten_nil, List.append_nil, foundIn_one, payloadItem, found_struct, h7]
  rw [if_neg (by decide), if_pos rfl, List.flatten_cons, List.flatten_nil, List.append_nil]
  cases x.nal_unit_payload.sps with
  | none => rw [line, foundIn_one, found]
  | some s =>
    rw [line, foundIn_one, spsItem, found_struct, List.flatten_cons, List.flatten_nil, List.append_nil, foundIn_one]

theorem read_resolution (σ : Store) {x : NalUnit} (h7 : x.nal_unit_header.nal_unit_type = 7) :
    readResolution (unitBody (unitItems σ x)) = x.nal_unit_payload.sps.map readAs := by
  have e1 : "width: ".toList = lit "width".toList [] := by decide
  have e2 : "height: ".toList = lit "height".toList [] := by decide
  unfold readResolution
  rw [e1, e2, search_body key_width (unit_goods σ x) (by decide), search_body key_height (unit_goods σ x) (by decide),
    payload_found σ h7 (.inl rfl), payload_found σ h7 (.inr rfl)]
  cases x.nal_unit_payload.sps with
  | none => rfl
  | some s =>
    dsimp only
    rw [sps_width (by rw [opts_eq]), sps_height (by rw [opts_eq])]
    dsimp only
    rw [(number_nat _).2.1, (number_nat _).2.1]
    rfl

/-- What the script reads of a NAL unit. -/
structure ReadOf (n : NalUnit) (x : Nal) : Prop where
  offset : x.offset = some n.offset
  length : x.length = some n.length
  type : x.nal_unit_type = some n.nal_unit_header.nal_unit_type
  resolution : n.nal_unit_header.nal_unit_type = 7 → x.resolution = n.nal_unit_payload.sps.map readAs

theorem readNal_of (σ : Store) (n : NalUnit) : ReadOf n (readNal (unitBody (unitItems σ n))) :=
  ⟨read_offset σ n, read_length σ n, read_type σ n, read_resolution σ⟩

/-- The items of the NAL units, each relative to the parameter sets before it. -/
def bodies : Store → List NalUnit → List (List Item)
  | _, [] => []
  | σ, n :: ns => unitItems σ n :: bodies (stored σ n.nal_unit_payload) ns

theorem items_bodies (bytes : NalUnit → List UInt8) : ∀ (σ : Store) (ns : List NalUnit),
    nalUnitItems (toolOptions toolArgs) bytes σ ns = (bodies σ ns).map (.group "nal_unit")
  | _, [] => rfl
  | σ, n :: ns => by rw [nalUnitItems, bodies, List.map_cons, nalUnitItem_eq, items_bodies bytes _ ns]

theorem bodies_goods : ∀ (σ : Store) (ns : List NalUnit), ∀ is ∈ bodies σ ns, Goods is
  | _, [], is, h => by simp [bodies] at h
  | σ, n :: ns, is, h => by
    rw [bodies] at h
    rcases List.mem_cons.mp h with rfl | h
    · exact unit_goods σ n
    · exact bodies_goods _ ns is h

theorem parse_units (bytes : NalUnit → List UInt8) (σ : Store) (ns : List NalUnit) :
    parseNalUnits (unitsText (toolOptions toolArgs) bytes 0 σ ns) = (bodies σ ns).map fun is => readNal (unitBody is) := by
  unfold parseNalUnits unitsText
  rw [items_bodies, List.flatMap_map, split_units _ (bodies_goods σ ns), List.map_map]
  rfl

/-- What the script takes for the resolution of a NAL unit. -/
def taken (n : NalUnit) : Option (Nat × Nat) := (Spec.heldSps n).map readAs

/-- Where the script cuts. -/
def points (data : List UInt8) : Option (Nat × Nat) → List NalUnit → List Nat
  | _, [] => []
  | cur, n :: ns =>
    match taken n with
    | none => points data cur ns
    | some r =>
      if cur ≠ none ∧ some r ≠ cur then findStartCodeOffset data n.offset :: points data (some r) ns else points data (some r) ns

theorem splitPoints_units (data : List UInt8) : ∀ (ns : List NalUnit) (σ : Store) (cur : Option (Nat × Nat)),
    splitPoints data cur ((bodies σ ns).map fun is => readNal (unitBody is)) = some (points data cur ns)
  | [], _, _ => rfl
  | n :: ns, σ, cur => by
    have hr := readNal_of σ n
    rw [bodies, List.map_cons, splitPoints, points, taken, Spec.heldSps, hr.type]
    by_cases h7 : n.nal_unit_header.nal_unit_type = 7
    · rw [if_neg (by simp [h7]), if_pos h7, hr.resolution h7]
      cases n.nal_unit_payload.sps with
      | none => exact splitPoints_units data ns _ cur
      | some x =>
        dsimp only [Option.map_some]
        by_cases hc : cur ≠ none ∧ some (readAs x) ≠ cur
        · rw [if_pos hc, if_pos hc, hr.offset]
          dsimp only
          rw [splitPoints_units data ns _ _]
          rfl
        · rw [if_neg hc, if_neg hc]
          exact splitPoints_units data ns _ _
    · rw [if_pos (by simp [h7]), if_neg h7]
      exact splitPoints_units data ns _ cur

/-- The points found from what the tool writes for NAL units. -/
theorem points_eq (data : List UInt8) (bytes : NalUnit → List UInt8) (σ : Store) (ns : List NalUnit) (cur : Option (Nat × Nat)) :
    splitPoints data cur (parseNalUnits (unitsText (toolOptions toolArgs) bytes 0 σ ns)) = some (points data cur ns) := by
  rw [parse_units, splitPoints_units]

end H264.Script
