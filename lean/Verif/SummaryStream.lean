import Verif.SummaryUnit

/-
What the summarising script makes of the text of a stream.
-/

namespace H264.Summary
open H264.Shown H264.Script

/-! ### Numbers -/

theorem dec_word {c : Char} (h : isDec c = true) : isWord c = true := by
  unfold isDec at h
  unfold isWord Char.isAlphanum
  rw [show c.isDigit = true from h]
  simp

theorem word_plain (c : Char) (h : isWord c = true) : plainChar c = true := by
  cases hp : plainChar c with
  | true => rfl
  | false => rw [nonplain_word hp] at h; cases h

theorem dec_plain (c : Char) (h : isDec c = true) : plainChar c = true := word_plain c (dec_word h)

theorem takeWhile_nat (v : Nat) {r : List Char} (hr : Brk r) : ((toString v).toList ++ r).takeWhile isDec = (toString v).toList := by
  rw [takeWhile_brk dec_plain hr, (number_nat v).1]

theorem takeWhile_nat_word (v : Nat) {r : List Char} (hr : Brk r) : ((toString v).toList ++ r).takeWhile isWord = (toString v).toList := by
  rw [takeWhile_brk word_plain hr]
  refine takeWhile_all fun c hc => dec_word ?_
  have := (number_nat v).1
  rw [← this] at hc
  exact List.all_eq_true.mp List.all_takeWhile c hc

theorem nat_inj {v w : Nat} (h : (toString v).toList = (toString w).toList) : v = w := by
  rw [← (number_nat v).2.1, ← (number_nat w).2.1, h]

theorem natAt_nat (v : Nat) {r : List Char} (hr : Brk r) : natAt ((toString v).toList ++ r) = some v := by
  unfold natAt
  rw [takeWhile_nat v hr, (number_nat v).2.1, if_neg]
  rw [List.isEmpty_iff]; exact (number_nat v).2.2

theorem intAt_nat (v : Nat) {r : List Char} (hr : Brk r) : intAt ((toString v).toList ++ r) = some (v : Int) := by
  have h := natAt_nat v hr
  have hd := (number_nat v).1
  obtain ⟨c, t, e⟩ : ∃ c t, (toString v).toList = c :: t := by
    cases hx : (toString v).toList with
    | nil => exact absurd hx (number_nat v).2.2
    | cons c t => exact ⟨c, t, rfl⟩
  rw [e] at hd h ⊢
  rw [List.cons_append] at h ⊢
  have hc : c ≠ '-' := by
    rintro rfl
    rw [List.takeWhile_cons, show isDec '-' = false by decide] at hd
    cases hd
  unfold intAt
  split
  · rename_i t' heq
    simp only [List.cons.injEq] at heq
    exact absurd heq.1 hc
  · rw [h]; rfl

theorem sliceTypeAt_nat (v : Nat) {r : List Char} (hr : Brk r) : sliceTypeAt ((toString v).toList ++ r) = decide (v ∈ [1, 5, 20]) := by
  unfold sliceTypeAt
  rw [takeWhile_nat_word v hr]
  rw [decide_eq_decide]
  simp only [List.mem_cons, List.not_mem_nil, or_false]
  constructor
  · rintro (h | h | h)
    · exact .inl (nat_inj (w := 1) (h.trans (by decide)))
    · exact .inr (.inl (nat_inj (w := 5) (h.trans (by decide))))
    · exact .inr (.inr (nat_inj (w := 20) (h.trans (by decide))))
  · rintro (rfl | rfl | rfl) <;> decide

/-! ### The counts -/

/-- The texts of the NAL units. -/
theorem count_units {key : List Char} (hk : OKey key) {f : NalUnit → Nat} {bytes : NalUnit → List UInt8}
    (hf : ∀ {σ n}, Refers σ n → opensN key (toks (nalUnitItem σ (toolOptions summaryArgs) (bytes n) n)) = f n) {σ : Store} {ns : List NalUnit}
    (h : Refs σ ns) : count (opn key) (unitsText (toolOptions summaryArgs) bytes (-1) σ ns) = (ns.map f).sum := by
  induction h with
  | nil σ => rfl
  | @cons σ n ns h1 h2 ih =>
    unfold unitsText at ih ⊢
    rw [nalUnitItems, List.flatMap_cons, List.append_assoc, count_text hk (-1) _ (nalUnit_good _ _ _ _) _ (.inl (by rw [unit_item]; rfl)), hf h1,
      List.map_cons, List.sum_cons, List.singleton_append, cnt_skip hk (by decide), ih]

theorem finds_units {key : List Char} (hk : FKey key) {f : NalUnit → List (List Char)} {bytes : NalUnit → List UInt8}
    (hf : ∀ {σ n}, Refers σ n → vals key (toks (nalUnitItem σ (toolOptions summaryArgs) (bytes n) n)) = f n) {σ : Store} {ns : List NalUnit}
    (h : Refs σ ns) : List.Forall₂ Follows (afters (lit key []) false (unitsText (toolOptions summaryArgs) bytes (-1) σ ns)) (ns.flatMap f) := by
  induction h with
  | nil σ => exact .nil
  | @cons σ n ns h1 h2 ih =>
    unfold unitsText at ih ⊢
    rw [nalUnitItems, List.flatMap_cons, List.append_assoc, List.flatMap_cons]
    obtain ⟨A, e, hA⟩ := finds_text hk (-1) (nalUnitItem σ (toolOptions summaryArgs) (bytes n) n) (nalUnit_good _ _ _ _)
      (['\n'] ++ (nalUnitItems (toolOptions summaryArgs) bytes (stored σ n.nal_unit_payload) ns).flatMap fun i => text (-1) i ++ ['\n'])
      (.inl (by rw [unit_item]; rfl))
    rw [e, List.singleton_append, aft_skip hk (by decide)]
    rw [hf h1] at hA
    exact List.rel_append hA ih

theorem sum_ite (p : NalUnit → Bool) (ns : List NalUnit) : (ns.map fun n => if p n then 1 else 0).sum = ns.countP p := by
  induction ns with
  | nil => rfl
  | cons n ns ih => rw [List.map_cons, List.sum_cons, ih, List.countP_cons, Nat.add_comm]

theorem okey {name : String} (h : name.toList ≠ [] ∧ name.toList.all plainChar = true) : OKey name.toList :=
  ⟨h.1, fun c hc => List.all_eq_true.mp h.2 c hc⟩
theorem fkey {name : String} (h : name.toList ≠ [] ∧ name.toList.all wordChar = true) : FKey name.toList :=
  ⟨h.1, fun c hc => List.all_eq_true.mp h.2 c hc⟩

theorem units_count {bytes : NalUnit → List UInt8} {σ : Store} {ns : List NalUnit} (h : Refs σ ns) :
    count "nal_unit {".toList (unitsText (toolOptions summaryArgs) bytes (-1) σ ns) = ns.length := by
  have := count_units (key := "nal_unit".toList) (okey (by decide)) (f := fun _ => 1) (bytes := bytes) (fun hr => (unit_opens hr _).1) h
  rw [show "nal_unit {".toList = opn "nal_unit".toList by decide, this]
  simp

theorem headers_count {bytes : NalUnit → List UInt8} {σ : Store} {ns : List NalUnit} (h : Refs σ ns) :
    countSliceHeaders (unitsText (toolOptions summaryArgs) bytes (-1) σ ns) = ns.countP Spec.hasSliceHeader := by
  have key : ∀ {σ : Store} {ns : List NalUnit}, Refs σ ns → countSliceHeaders (unitsText (toolOptions summaryArgs) bytes (-1) σ ns) =
      (ns.map fun n => if Spec.hasSliceHeader n then 1 else 0).sum := by
    intro σ ns h
    unfold countSliceHeaders
    rw [show "slice_header {".toList = opn "slice_header".toList by decide,
      show "slice_header_in_scalable_extension {".toList = opn "slice_header_in_scalable_extension".toList by decide]
    induction h with
    | nil σ => rfl
    | @cons σ n ns h1 h2 ih =>
      have k1 : OKey "slice_header".toList := okey (by decide)
      have k2 : OKey "slice_header_in_scalable_extension".toList := okey (by decide)
      have := (unit_opens h1 (bytes n)).2.2
      unfold unitsText at ih ⊢
      rw [nalUnitItems, List.flatMap_cons, List.append_assoc, count_text k1 (-1) _ (nalUnit_good _ _ _ _) _ (.inl (by rw [unit_item]; rfl)),
        count_text k2 (-1) _ (nalUnit_good _ _ _ _) _ (.inl (by rw [unit_item]; rfl)), List.map_cons, List.sum_cons, ← ih, ← this,
        List.singleton_append, cnt_skip k1 (by decide), cnt_skip k2 (by decide)]
      omega
  rw [key h, sum_ite]

theorem countP_follows {A : List (List Char)} {ns : List NalUnit}
    (h : List.Forall₂ Follows A (ns.flatMap fun n => [(toString n.nal_unit_header.nal_unit_type).toList])) : A.countP sliceTypeAt = ns.countP Spec.isSlice := by
  induction ns generalizing A with
  | nil => cases h; rfl
  | cons n ns ih =>
    rw [List.flatMap_cons, List.singleton_append] at h
    cases h with
    | @cons a _ A _ h1 h2 =>
      obtain ⟨r, hr, rfl⟩ := h1
      rw [List.countP_cons, List.countP_cons, ih h2, sliceTypeAt_nat _ hr]
      rfl

theorem slices_count {bytes : NalUnit → List UInt8} {σ : Store} {ns : List NalUnit} (h : Refs σ ns) :
    countSliceNalus (unitsText (toolOptions summaryArgs) bytes (-1) σ ns) = ns.countP Spec.isSlice := by
  unfold countSliceNalus
  rw [show "nal_unit_type: ".toList = lit "nal_unit_type".toList [] by decide]
  exact countP_follows (finds_units (fkey (by decide)) (f := fun n => [(toString n.nal_unit_header.nal_unit_type).toList])
    (fun hr => unit_type hr _) h)

/-! ### The profile -/

/-- The first match in the text of an item is the profile, and the level is after it. -/
def Prof (i : Item) (P : List Char) : Prop :=
  ∀ u, ∃ r A, afters (lit "profile".toList []) false (text (-1) i ++ u) = (P ++ " level_idc:".toList ++ r) :: A

theorem kprofile : FKey "profile".toList := fkey (by decide)

theorem goods_left {a b : List Item} (h : Goods (a ++ b)) : Goods a := by
  induction a with
  | nil => exact trivial
  | cons i a ih =>
    rw [List.cons_append, Goods] at h
    refine ⟨h.1, ih h.2.1, fun hj => h.2.2 ?_⟩
    cases a with
    | nil => simp [startsJoined] at hj
    | cons j a => cases j <;> simp_all [startsJoined]

theorem lines_append (l : Int) (a b : List Item) : lines l (a ++ b) = lines l a ++ lines l b := by
  induction a with
  | nil => rw [lines]; rfl
  | cons i a ih => cases i <;> (rw [List.cons_append, lines, lines, ih]; simp)

theorem lines_cons {l : Int} {i : Item} (h : isJoined i = false) (is : List Item) : lines l (i :: is) = newLine l ++ text l i ++ lines l is := by
  cases i with
  | joined name items => cases h
  | _ => rw [lines]

theorem prof_group {name : String} {a b : List Item} {i : Item} {P : List Char} (hg : Good (.group name (a ++ i :: b)))
    (ha : vals "profile".toList (toksIn a) = []) (hj : isJoined i = false) (hp : Prof i P) : Prof (.group name (a ++ i :: b)) P := by
  intro u
  rw [Good] at hg
  rw [text, lines_append, lines_cons hj]
  have e : name.toList ++ " {".toList ++ (lines (deeper (-1)) a ++ (newLine (deeper (-1)) ++ text (deeper (-1)) i ++ lines (deeper (-1)) b)) ++
      newLine (-1) ++ "}".toList ++ u = name.toList ++ " {".toList ++ (lines (-1) a ++ (newLine (-1) ++ (text (-1) i ++ (lines (-1) b ++
      (newLine (-1) ++ ("}".toList ++ u)))))) := by
    rw [show deeper (-1) = -1 from rfl]
    simp only [List.append_assoc]
  have hf := finds_lines kprofile (-1) a (goods_left hg.2) (newLine (-1) ++ (text (-1) i ++ (lines (-1) b ++ (newLine (-1) ++ ("}".toList ++ u)))))
    (brk_newLine _ _)
  rw [ha] at hf
  rw [e, aft_open kprofile hg.1, hf.skip, aft_newLine kprofile]
  exact hp _

theorem prof_fields {name : String} {a rest : List Item} {P v : List Char}
    (hg : Good (.group name (a ++ (.field "profile" P :: .field "level_idc" v :: rest)))) (ha : vals "profile".toList (toksIn a) = [])
    (hp : ∀ w ∈ lex P, goodWord w = true) : Prof (.group name (a ++ (.field "profile" P :: .field "level_idc" v :: rest))) P := by
  intro u
  rw [Good] at hg
  rw [text, lines_append, lines_cons (i := .field "profile" P) rfl, lines_cons (i := .field "level_idc" v) rfl, show deeper (-1) = -1 from rfl,
    text, text]
  have e : name.toList ++ " {".toList ++ (lines (-1) a ++ (newLine (-1) ++ ("profile".toList ++ ": ".toList ++ P) ++
      (newLine (-1) ++ ("level_idc".toList ++ ": ".toList ++ v) ++ lines (-1) rest))) ++ newLine (-1) ++ "}".toList ++ u =
      name.toList ++ " {".toList ++ (lines (-1) a ++ (newLine (-1) ++ ("profile".toList ++ ": ".toList ++ P ++
        (' ' :: ("level_idc: ".toList ++ (v ++ (lines (-1) rest ++ (newLine (-1) ++ ("}".toList ++ u))))))))) := by
    simp [newLine]
  have hf := finds_lines kprofile (-1) a (goods_left hg.2) (newLine (-1) ++ ("profile".toList ++ ": ".toList ++ P ++
        (' ' :: ("level_idc: ".toList ++ (v ++ (lines (-1) rest ++ (newLine (-1) ++ ("}".toList ++ u)))))))) (brk_newLine _ _)
  rw [ha] at hf
  rw [e, aft_open kprofile hg.1, hf.skip, aft_newLine kprofile, aft_field kprofile (by decide) hp (brk_cons (by decide) _)]
  refine ⟨' ' :: (v ++ (lines (-1) rest ++ (newLine (-1) ++ ("}".toList ++ u)))), afters (lit "profile".toList []) false
    (' ' :: ("level_idc: ".toList ++ (v ++ (lines (-1) rest ++ (newLine (-1) ++ ("}".toList ++ u)))))), ?_⟩
  rw [show ends "profile".toList false "profile".toList = true by decide, if_pos rfl, List.singleton_append]
  congr 1
  simp

theorem prof_sps (opts : ParsingOptions) (x : SpsData) : Prof (spsDataItem opts x) (profileName x.getProfileType).toList := by
  have hg := spsData_good opts x
  unfold spsDataItem struct at hg ⊢
  have hfl : ∀ (a1 a2 a3 a4 a5 a6 a7 a8 p l : Item) (bs : List (List Item)),
      ([a1] :: [a2] :: [a3] :: [a4] :: [a5] :: [a6] :: [a7] :: [a8] :: [p] :: [l] :: bs).flatten =
        [a1, a2, a3, a4, a5, a6, a7, a8] ++ (p :: l :: bs.flatten) := fun _ _ _ _ _ _ _ _ _ _ _ => rfl
  unfold nat at hg ⊢
  rw [hfl] at hg ⊢
  generalize List.flatten _ = rest at hg ⊢
  refine prof_fields hg ?_ (by cases x.getProfileType <;> decide +kernel)
  simp only [toksIn, toks, List.singleton_append]
  look
  rfl

theorem lazy_profile (p : ProfileType) (r : List Char) :
    lazyUpTo " level_idc:".toList ((profileName p).toList ++ " level_idc:".toList ++ r) = some (profileName p).toList := by
  cases p <;> rfl

theorem strip_profile (p : ProfileType) : strip (profileName p).toList = (profileName p).toList := by
  cases p <;> decide +kernel

theorem payload_prof {σ : Store} {n : NalUnit} {x : SpsData} (hx : Spec.spsIn n = some x) :
    Prof (payloadItem σ (toolOptions summaryArgs) n.nal_unit_header n.nal_unit_payload) (profileName x.getProfileType).toList := by
  have hg := payload_good σ (toolOptions summaryArgs) n.nal_unit_header n.nal_unit_payload
  unfold Spec.spsIn at hx
  unfold payloadItem struct at hg ⊢
  rw [List.flatten_cons, List.flatten_nil, List.append_nil] at hg ⊢
  split at hx
  · rename_i t7
    rw [if_neg (by rw [t7]; decide), if_pos t7, hx, line] at hg ⊢
    have h2 := sps_good (toolOptions summaryArgs) x
    refine prof_group (a := []) hg rfl rfl ?_
    unfold spsItem struct at h2 ⊢
    exact prof_group (a := []) (b := []) h2 rfl rfl (prof_sps _ x)
  · split at hx
    · rename_i t7 t15
      rw [if_neg (by rw [t15]; decide), if_neg t7, if_neg (by omega), if_neg (by omega), if_pos t15] at hg ⊢
      cases hy : n.nal_unit_payload.subset_sps with
      | none => rw [hy] at hx; cases hx
      | some y =>
        rw [hy] at hx
        obtain rfl : y.seq_parameter_set_data = x := by simpa using hx
        rw [hy, line] at hg
        rw [line]
        have h2 := subsetSps_good (toolOptions summaryArgs) y
        refine prof_group (a := []) hg rfl rfl ?_
        unfold subsetSpsItem struct at h2 ⊢
        exact prof_group (a := []) h2 rfl rfl (prof_sps _ _)
    · cases hx

theorem unit_profile {σ : Store} {n : NalUnit} {bytes : List UInt8} {x : SpsData} (hx : Spec.spsIn n = some x) :
    getProfile (text (-1) (nalUnitItem σ (toolOptions summaryArgs) bytes n)) = some (profileName x.getProfileType).toList := by
  have hg := nalUnit_good σ (toolOptions summaryArgs) bytes n
  rw [unit_item] at hg ⊢
  have hp := prof_group (a := [headerItem n.nal_unit_header]) (b := []) hg (by rw [toksIn_one]; exact header_other (by decide) (by decide) _) rfl
    (payload_prof (σ := σ) hx)
  obtain ⟨r, A, e⟩ := hp []
  rw [List.append_nil] at e
  unfold getProfile
  rw [show "profile: ".toList = lit "profile".toList [] by decide, show [headerItem n.nal_unit_header, payloadItem σ (toolOptions summaryArgs)
    n.nal_unit_header n.nal_unit_payload] = [headerItem n.nal_unit_header] ++ [payloadItem σ (toolOptions summaryArgs)
    n.nal_unit_header n.nal_unit_payload] from rfl, e, List.findSome?_cons, lazy_profile]
  dsimp only
  rw [Option.map_some, strip_profile]

/-! ### Numbers of an SPS -/

theorem unit_int {σ : Store} {n : NalUnit} (hr : Refers σ n) {bytes : List UInt8} {x : SpsData} (hx : Spec.spsIn n = some x)
    {name : String} (hk : name.toList ∈ fkeys) (hw : name.toList ≠ [] ∧ name.toList.all wordChar = true)
    (h : ends name.toList false "nal_unit_type".toList = false) {v : Nat}
    (hv : vals name.toList (toks (spsDataItem (toolOptions summaryArgs) x)) = [(toString v).toList]) :
    getInt (text (-1) (nalUnitItem σ (toolOptions summaryArgs) bytes n)) name = some (v : Int) := by
  obtain ⟨A, e, hA⟩ := finds_text (fkey hw) (-1) (nalUnitItem σ (toolOptions summaryArgs) bytes n) (nalUnit_good _ _ _ _) []
    (.inl (by rw [unit_item]; rfl))
  rw [unit_sps hr bytes hx hk h, hv] at hA
  rw [List.append_nil] at e
  unfold getInt
  rw [show name.toList ++ ": ".toList = lit name.toList [] by unfold lit; simp, e]
  cases hA with
  | cons h1 h2 =>
    obtain ⟨r, hb, rfl⟩ := h1
    rw [List.cons_append, List.findSome?_cons, intAt_nat v hb]

/-- What the script takes for the level. -/
def levelShown (x : SpsData) : List Char :=
  if x.profile_idc ∈ [44, 100, 110, 122, 244] then
    if x.level_idc = 9 then "1b".toList else (toString (x.level_idc / 10) ++ "." ++ toString (x.level_idc % 10)).toList
  else if x.level_idc = 11 ∧ x.constraint_set3_flag = 1 then "1b".toList
  else (toString (x.level_idc / 10) ++ "." ++ toString (x.level_idc % 10)).toList

theorem format_level (x : SpsData) : formatLevel (some (x.profile_idc : Int)) (some (x.level_idc : Int)) (some (x.constraint_set3_flag : Int)) =
    some (levelShown x) := by
  unfold formatLevel levelShown highProfileIdcs
  dsimp only
  have h1 : (∃ p ∈ [(44 : Int), 100, 110, 122, 244], some (x.profile_idc : Int) = some p) ↔ x.profile_idc ∈ [44, 100, 110, 122, 244] := by
    simp only [List.mem_cons, List.not_mem_nil, or_false, Option.some.injEq]
    constructor
    · rintro ⟨p, hp, e⟩
      omega
    · intro h
      exact ⟨_, by omega, rfl⟩
  have h2 : (toString ((x.level_idc : Int) / 10) ++ "." ++ toString ((x.level_idc : Int) % 10)).toList =
      (toString (x.level_idc / 10) ++ "." ++ toString (x.level_idc % 10)).toList := rfl
  have h3 : ((x.level_idc : Int) = 9) ↔ x.level_idc = 9 := by omega
  have h4 : ((x.level_idc : Int) = 11 ∧ some (x.constraint_set3_flag : Int) = some 1) ↔ x.level_idc = 11 ∧ x.constraint_set3_flag = 1 := by
    simp only [Option.some.injEq]
    omega
  simp only [h1, h2, h3, h4]
  split
  · split <;> rfl
  · split <;> rfl

theorem sps_line {σ : Store} {n : NalUnit} (hr : Refers σ n) (bytes : List UInt8) (acc : List (List Char) × List (List Char) × List (List Char)) :
    spsLine acc (text (-1) (nalUnitItem σ (toolOptions summaryArgs) bytes n)) =
      match Spec.spsIn n with
      | none => acc
      | some x => (addUnique acc.1 (some (Spec.resolutionName x)), addUnique acc.2.1 (some (profileName x.getProfileType).toList),
          addUnique acc.2.2 (some (levelShown x))) := by
  have hc : count "sps_data {".toList (text (-1) (nalUnitItem σ (toolOptions summaryArgs) bytes n)) = if (Spec.spsIn n).isSome then 1 else 0 := by
    have := count_text (key := "sps_data".toList) (okey (by decide)) (-1) (nalUnitItem σ (toolOptions summaryArgs) bytes n) (nalUnit_good _ _ _ _) []
      (.inl (by rw [unit_item]; rfl))
    rw [List.append_nil, (unit_opens hr bytes).2.1] at this
    rw [show "sps_data {".toList = opn "sps_data".toList by decide, this]
    rfl
  unfold spsLine
  rw [hc]
  cases hx : Spec.spsIn n with
  | none => rfl
  | some x =>
    obtain ⟨v1, v2, v3, v4, v5⟩ := sps_vals (opts := toolOptions summaryArgs) rfl x
    rw [if_neg (by simp)]
    dsimp only
    rw [unit_int hr hx (by decide) (by decide) (by decide) v1, unit_int hr hx (by decide) (by decide) (by decide) v2,
      unit_int hr hx (by decide) (by decide) (by decide) v3, unit_int hr hx (by decide) (by decide) (by decide) v4,
      unit_int hr hx (by decide) (by decide) (by decide) v5, unit_profile hx, format_level]
    rfl

/-! ### Lists -/

theorem add_unique (l acc : List (List Char)) : l.foldl (fun a v => addUnique a (some v)) acc = acc ++ (l.filter fun v => !acc.contains v).eraseDups := by
  induction l generalizing acc with
  | nil => simp
  | cons v l ih =>
    rw [List.foldl_cons, ih, addUnique]
    by_cases h : v ∈ acc
    · rw [if_pos h, List.filter_cons, if_neg (by simp [h])]
    · rw [if_neg h, List.filter_cons, if_pos (by simp [h]), List.eraseDups_cons, List.append_assoc, List.singleton_append, List.filter_filter]
      congr 3
      refine List.filter_congr fun w _ => ?_
      rw [Bool.eq_iff_iff]
      simp only [Bool.not_eq_true', Bool.and_eq_true, List.contains_eq_mem, decide_eq_false_iff_not, List.mem_append, List.mem_singleton, not_or,
        beq_eq_false_iff_ne]
      exact And.comm

theorem join_listed (l : List (List Char)) : Dpb.joinSemi l = (l.intersperse [';']).flatten := by
  induction l with
  | nil => rfl
  | cons a l ih =>
    cases l with
    | nil => simp [Dpb.joinSemi]
    | cons b l => rw [Dpb.joinSemi, ih]; simp

theorem fold_three {α : Type} (f g k : α → List Char) (l : List α) (a b c : List (List Char)) :
    l.foldl (fun acc x => (addUnique acc.1 (some (f x)), addUnique acc.2.1 (some (g x)), addUnique acc.2.2 (some (k x)))) (a, b, c) =
      ((l.map f).foldl (fun a v => addUnique a (some v)) a, (l.map g).foldl (fun a v => addUnique a (some v)) b,
        (l.map k).foldl (fun a v => addUnique a (some v)) c) := by
  induction l generalizing a b c with
  | nil => rfl
  | cons x l ih => rw [List.foldl_cons, ih]; rfl

theorem sps_lines {bytes : NalUnit → List UInt8} {σ : Store} {ns : List NalUnit} (h : Refs σ ns) :
    parseSpsLines (unitsText (toolOptions summaryArgs) bytes (-1) σ ns) =
      (((ns.filterMap Spec.spsIn).map Spec.resolutionName).eraseDups,
        ((ns.filterMap Spec.spsIn).map fun x => (profileName x.getProfileType).toList).eraseDups,
        ((ns.filterMap Spec.spsIn).map levelShown).eraseDups) := by
  have hsplit : splitLines (unitsText (toolOptions summaryArgs) bytes (-1) σ ns) = (nalUnitItems (toolOptions summaryArgs) bytes σ ns).map (text (-1)) := by
    rw [← split_lines (ls := (nalUnitItems (toolOptions summaryArgs) bytes σ ns).map (text (-1)))]
    · unfold unitsText
      rw [List.flatMap_map]
    · intro l hl
      obtain ⟨i, hi, rfl⟩ := List.mem_map.mp hl
      exact text_line i (nalUnits_good _ _ _ _ i hi)
  have hfold : ∀ {σ : Store} {ns : List NalUnit} (acc : List (List Char) × List (List Char) × List (List Char)), Refs σ ns →
      ((nalUnitItems (toolOptions summaryArgs) bytes σ ns).map (text (-1))).foldl spsLine acc =
      (ns.filterMap Spec.spsIn).foldl (fun acc x => (addUnique acc.1 (some (Spec.resolutionName x)),
        addUnique acc.2.1 (some (profileName x.getProfileType).toList), addUnique acc.2.2 (some (levelShown x)))) acc := by
    intro σ ns acc h
    induction h generalizing acc with
    | nil σ => rfl
    | @cons σ n ns h1 h2 ih =>
      rw [nalUnitItems, List.map_cons, List.foldl_cons, sps_line h1, ih, List.filterMap_cons]
      cases Spec.spsIn n <;> rfl
  unfold parseSpsLines
  rw [hsplit, hfold _ h, fold_three, add_unique, add_unique, add_unique]
  simp

end H264.Summary
