import Verif.DumpParsed
import Verif.Spec.DumpItems

/-
The dump functions write the items of Spec/DumpItems.lean.
-/

namespace H264
open Prog H264.Spec H264.Shown

theorem lines_append (l : Int) (a b : List Item) : lines l (a ++ b) = lines l a ++ lines l b := by
  induction a with
  | nil => simp [lines]
  | cons i a ih => cases i <;> simp [lines, ih]

theorem newLine_eq {l : Int} (hl : Lev l) : newLine l = indentText l := by
  unfold newLine indentText
  split
  · rfl
  · have : (2 * l).natAbs = 2 * l.toNat := by rcases hl with h | h <;> omega
    rw [this]

theorem deeper_eq (l : Int) : deeper l = indentIncr l := rfl

/-- The statements write the items, each on a line of level `l`. -/
def Draws (l : Int) (d : Dump) (is : List Item) : Prop := d = .val (lines l is)
/-- The statement writes the item, without going to a new line. -/
def DrawsOne (l : Int) (d : Dump) (i : Item) : Prop := d = .val (text l i)

theorem draws_nil (l : Int) : Draws l (cat []) [].flatten := by simp [Draws, cat, lines]
theorem draws_none (l : Int) : Draws l (.val []) [] := by simp [Draws, lines]

theorem draws_cons {l : Int} {d : Dump} {ds : List Dump} {a : List Item} {bs : List (List Item)} (h : Draws l d a)
    (hs : Draws l (cat ds) bs.flatten) : Draws l (cat (d :: ds)) (a :: bs).flatten := by
  unfold Draws at *
  subst h
  rw [cat, hs]
  simp [lines_append]

theorem draws_when {l : Int} {c c' : Prop} [Decidable c] [Decidable c'] {ds : List Dump} {is : List (List Item)} (hc : c ↔ c')
    (h : c → c' → Draws l (cat ds) is.flatten) : Draws l (whenD c ds) (Shown.opt c' is) := by
  unfold whenD Shown.opt
  by_cases h1 : c
  · rw [if_pos h1, if_pos (hc.mp h1)]; exact h h1 (hc.mp h1)
  · rw [if_neg h1, if_neg (fun h => h1 (hc.mpr h))]; exact draws_none l

theorem draws_fld {l : Int} (hl : Lev l) {name : String} {t : List Char} : Draws l (fld l name t) [.field name t] := by
  unfold Draws fld
  rw [← newLine_eq hl]
  simp [lines, text]

theorem toString_nat (v : Nat) : (toString v).toList = decU v := by
  simp [toString, Nat.repr, decU]

theorem toString_int (v : Int) : (toString v).toList = decI v := by
  cases v with
  | ofNat n =>
    have : ¬ (Int.ofNat n < 0) := by simp
    rw [decI, if_neg this]
    exact toString_nat n
  | negSucc n =>
    rw [decI, if_pos (by exact Int.negSucc_lt_zero n)]
    show ("-" ++ Nat.repr (n + 1)).toList = _
    rw [String.toList_append]
    simp [Nat.repr, decU]

theorem toU32_emod (v : Int) : ((toU32 v : Nat) : Int) = v % 4294967296 := by
  unfold toU32
  omega

theorem draws_fldU {l : Int} (hl : Lev l) {name : String} {v : Nat} : Draws l (fldU l name v) (nat name v) := by
  unfold nat
  rw [toString_nat]; exact draws_fld hl
theorem draws_fldI {l : Int} (hl : Lev l) {name : String} {v : Int} : Draws l (fldI l name v) (int name v) := by
  unfold int
  rw [toString_int]; exact draws_fld hl
theorem draws_fldIU {l : Int} (hl : Lev l) {name : String} {v : Int} : Draws l (fldIU l name v) (mod32 name v) := by
  unfold mod32
  rw [← toU32_emod]
  have : toString ((toU32 v : Nat) : Int) = toString (toU32 v) := rfl
  rw [this, toString_nat]; exact draws_fld hl

theorem elems_eq {α : Type} (f : α → Text) (vs : List α) : elems f vs = spaced (vs.map f) := by
  simp [elems, spaced, List.flatMap_map]

theorem draws_arr {α : Type} {l : Int} (hl : Lev l) {name : String} {f : α → Text} {vs : List α} :
    Draws l (arr l name f vs) [.values name (vs.map f)] := by
  unfold Draws arr
  rw [← newLine_eq hl, elems_eq]
  simp [lines, text]

theorem draws_arrU {l : Int} (hl : Lev l) {name : String} {vs : List Nat} : Draws l (arrU l name vs) (nats name vs) := by
  unfold nats
  simp only [toString_nat]; exact draws_arr hl
theorem draws_arrI {l : Int} (hl : Lev l) {name : String} {vs : List Int} : Draws l (arrI l name vs) (ints name vs) := by
  unfold ints
  simp only [toString_int]; exact draws_arr hl
theorem draws_arr2 {l : Int} (hl : Lev l) {name : String} {vs : List (List Int)} :
    Draws l (arr2 l name vs) (intRows name vs) := by
  unfold Draws arr2 arr intRows
  rw [← newLine_eq hl, elems_eq]
  simp only [elems_eq, toString_int]
  simp [lines, text, Function.comp_def]

theorem drawsOne_block {l : Int} (hl : Lev l) {name : String} {body : Int → List Dump} {is : List (List Item)}
    (h : ∀ l, Lev l → Draws l (cat (body l)) is.flatten) : DrawsOne l (block name l body) (struct name is) := by
  unfold DrawsOne block struct
  have hd : indentDecr (indentIncr l) = l := by
    unfold indentDecr indentIncr
    rcases hl with h | h <;> split <;> (try split) <;> omega
  rw [h _ (Lev.incr hl), Res.val_bind, hd, ← newLine_eq hl]
  simp [text, deeper_eq]

theorem draws_item {l : Int} (hl : Lev l) {d : Dump} {i : Item} (h : DrawsOne l d i)
    (hj : ∀ n is, i ≠ .joined n is) : Draws l (item l d) [i] := by
  unfold Draws item
  rw [h, Res.val_bind, ← newLine_eq hl]
  cases i with
  | joined n is => exact absurd rfl (hj n is)
  | _ => simp [lines]

theorem draws_struct {l : Int} (hl : Lev l) {d : Dump} {name : String} {is : List (List Item)}
    (h : DrawsOne l d (struct name is)) : Draws l (item l d) [struct name is] :=
  draws_item hl h (by intro n is; simp [struct])

theorem draws_deref {α : Type} {l : Int} (hl : Lev l) {p : Option α} {f : α → Dump} {g : α → Item}
    (hp : ∃ x, p = some x ∧ DrawsOne l (f x) (g x)) (hj : ∀ x n is, g x ≠ .joined n is) :
    Draws l (item l (deref p f)) (part p g) := by
  obtain ⟨x, rfl, h⟩ := hp
  exact draws_item hl h (hj x)

theorem draws_checked {α : Type} {l : Int} (hl : Lev l) {p : Option α} {f : α → Dump} {g : α → Item}
    (hp : ∀ x, p = some x → DrawsOne l (f x) (g x)) (hj : ∀ x n is, g x ≠ .joined n is) :
    Draws l (checked p fun x => item l (f x)) (part p g) := by
  cases p with
  | none => exact draws_none l
  | some x => exact draws_item hl (hp x rfl) (hj x)

theorem drawsOne_line {α : Type} {l : Int} (hl : Lev l) {p : Option α} {f : α → Dump} {g : α → Item}
    (hp : ∀ x, p = some x → DrawsOne l (f x) (g x)) (hj : ∀ x n is, g x ≠ .joined n is) :
    Draws l (item l (checked p f)) (line p g) := by
  cases p with
  | none =>
    unfold Draws item line checked
    rw [Res.val_bind, ← newLine_eq hl]
    simp [lines, text]
  | some x => exact draws_item hl (hp x rfl) (hj x)

/-- One statement that writes several groups of items. -/
theorem draws_many {l : Int} {d : Dump} {ds : List Dump} (a : List (List Item)) {b : List (List Item)} (h : Draws l d a.flatten)
    (hs : Draws l (cat ds) b.flatten) : Draws l (cat (d :: ds)) (a ++ b).flatten := by
  rw [List.flatten_append]
  unfold Draws at *
  subst h
  rw [cat, hs]
  simp [lines_append]

theorem opt_pos {c : Prop} [Decidable c] (h : c) (is : List (List Item)) : Shown.opt c is = is.flatten := if_pos h
theorem opt_neg {c : Prop} [Decidable c] (h : ¬ c) (is : List (List Item)) : Shown.opt c is = [] := if_neg h

theorem Draws.nil {l : Int} {d : Dump} {a : List (List Item)} (h : Draws l d a.flatten) : Draws l d ([] :: a).flatten := h
theorem Draws.only {l : Int} {d : Dump} {a : List Item} {b : List (List Item)} (h : Draws l d a) (hb : b.flatten = []) :
    Draws l d (a :: b).flatten := by
  rw [List.flatten_cons, hb, List.append_nil]; exact h

/-- Steps through the statements of an `fdump` function; conditions `omega` does not prove equivalent are left. -/
macro "draws" : tactic => `(tactic| repeat' (first
  | exact draws_nil _
  | exact draws_fldU ‹Lev _›
  | exact draws_fldI ‹Lev _›
  | exact draws_fldIU ‹Lev _›
  | exact draws_arrU ‹Lev _›
  | exact draws_arrI ‹Lev _›
  | exact draws_arr2 ‹Lev _›
  | exact draws_fld ‹Lev _›
  | refine draws_cons ?_ ?_
  | (refine draws_when Iff.rfl ?_; intro _ _)
  | (refine draws_when (by omega) ?_; intro _ _)
  | (refine draws_when ?_ ?_; rotate_left; intro _ _)))

theorem svcHeader_draws (x : SvcHeaderExt) {l : Int} (hl : Lev l) : DrawsOne l (x.fdump l) (svcHeaderItem x) := by
  unfold SvcHeaderExt.fdump svcHeaderItem
  refine drawsOne_block hl fun l hl => ?_
  draws

theorem header_draws {x : NalHeader} (hx : x.Ok) {l : Int} (hl : Lev l) : DrawsOne l (x.fdump l) (headerItem x) := by
  unfold NalHeader.fdump headerItem
  refine drawsOne_block hl fun l hl => ?_
  have h21 := hx.not_3davc.1
  have hext := hx.ext
  refine draws_cons (draws_fldU hl) (draws_cons (draws_fldU hl) (draws_cons (draws_fldU hl) (draws_many [_, _] ?_ (draws_nil _))))
  by_cases h14 : x.nal_unit_type = 14 ∨ x.nal_unit_type = 20
  · rw [if_pos h14] at hext
    obtain ⟨h1, e, he, ok⟩ := hext
    rw [opt_neg h21]
    refine Draws.only ?_ rfl
    refine draws_when (by omega) fun _ _ => ?_
    rw [if_pos h21]
    refine draws_many [_, _] ?_ (draws_nil _)
    draws
    exact draws_checked hl (fun y _ => svcHeader_draws y hl) (by simp [svcHeaderItem, struct])
  · rw [opt_neg h14, opt_neg h21]
    unfold whenD
    rw [if_neg (by omega)]
    exact draws_none l

theorem hrd_draws (x : Hrd) {l : Int} (hl : Lev l) : DrawsOne l (x.fdump l) (hrdItem x) := by
  unfold Hrd.fdump hrdItem
  refine drawsOne_block hl fun l hl => ?_
  draws

theorem vui_draws {x : Vui} (hx : x.Ok) {l : Int} (hl : Lev l) : DrawsOne l (x.fdump l) (vuiItem x) := by
  unfold Vui.fdump vuiItem
  refine drawsOne_block hl fun l hl => ?_
  have h1 := hx.aspect_flag
  have h2 := hx.overscan_flag
  have h3 := hx.video_flag
  have h4 := hx.video
  have h5 := hx.chroma_flag
  have h6 := hx.timing_flag
  have h7 := hx.nal_hrd_flag
  have h8 := hx.vcl_hrd_flag
  have h9 := hx.restriction_flag
  have h10 : x.colour_description_present_flag < 2 := by split at h4 <;> omega
  draws
  · have h := hx.nal_hrd
    rw [if_pos (by assumption)] at h
    obtain ⟨y, hy, _⟩ := h
    exact draws_deref hl ⟨y, hy, hrd_draws y hl⟩ (by simp [hrdItem, struct])
  · have h := hx.vcl_hrd
    rw [if_pos (by assumption)] at h
    obtain ⟨y, hy, _⟩ := h
    exact draws_deref hl ⟨y, hy, hrd_draws y hl⟩ (by simp [hrdItem, struct])

theorem profileName_eq (p : ProfileType) : profileTypeToString p = profileName p := by cases p <;> rfl

theorem spsData_draws {x : SpsData} (hx : x.InRange) (opts : ParsingOptions) {l : Int} (hl : Lev l) :
    DrawsOne l (x.fdump l opts) (spsDataItem opts x) := by
  unfold SpsData.fdump spsDataItem
  rw [profileName_eq]
  refine drawsOne_block hl fun l hl => ?_
  have h1 := hx.2.vui_flag
  have h2 := hx.2.crop_flag
  iterate 11 refine draws_cons (by first | exact draws_fldU hl | exact draws_fld hl) ?_
  refine draws_cons ?_ ?_
  · draws
    exact hasChromaInfo_iff _
  iterate 2 refine draws_cons (draws_fldU hl) ?_
  refine draws_many [_, _] ?_ ?_
  · by_cases h0 : x.pic_order_cnt_type = 0
    · have h1 : ¬ x.pic_order_cnt_type = 1 := by omega
      rw [if_pos h0, opt_pos h0, opt_neg h1]
      exact Draws.only (Draws.only (draws_fldU hl) rfl) rfl
    · rw [if_neg h0, opt_neg h0]
      refine Draws.nil (Draws.only ?_ rfl)
      draws
  iterate 5 refine draws_cons (draws_fldU hl) ?_
  refine draws_cons ?_ ?_
  · draws
  iterate 2 refine draws_cons (draws_fldU hl) ?_
  refine draws_cons ?_ ?_
  · draws
  refine draws_cons (draws_fldU hl) ?_
  refine draws_cons ?_ (draws_cons ?_ (draws_nil _))
  · refine draws_when (by omega) fun _ _ => draws_cons ?_ (draws_nil _)
    have h := hx.2.vui
    rw [if_pos (by assumption)] at h
    obtain ⟨y, hy, ok⟩ := h
    exact draws_deref hl ⟨y, hy, vui_draws ok hl⟩ (by simp [vuiItem, struct])
  · refine draws_when Iff.rfl fun _ _ => draws_many [_, _] ?_ (draws_nil _)
    unfold SpsData.dumpResolution
    rw [getResolution_eq hx.1 hx.2, Res.val_bind]
    dsimp only [Option.getD_some]
    exact draws_cons (draws_fldI hl) (draws_cons (draws_fldI hl) (draws_nil _))

theorem sps_draws {x : SpsData} (hx : x.InRange) (opts : ParsingOptions) {l : Int} (hl : Lev l) :
    DrawsOne l (dumpSps x l opts) (spsItem opts x) := by
  unfold dumpSps spsItem
  refine drawsOne_block hl fun l hl => ?_
  exact draws_cons (draws_struct hl (spsData_draws hx opts hl)) (draws_nil _)

theorem dumpMap_draws (x : SliceGroups) {l : Int} (hl : Lev l) : Draws l (x.dumpMap l) [
    Shown.opt (x.slice_group_map_type = 0) [nats "run_length_minus1" x.run_length_minus1],
    Shown.opt (x.slice_group_map_type = 2) [nats "top_left" x.top_left, nats "bottom_right" x.bottom_right],
    Shown.opt (3 ≤ x.slice_group_map_type ∧ x.slice_group_map_type ≤ 5) [
      nat "slice_group_change_direction_flag" x.slice_group_change_direction_flag,
      nat "slice_group_change_rate_minus1" x.slice_group_change_rate_minus1],
    Shown.opt (x.slice_group_map_type = 6) [
      nat "pic_size_in_map_units_minus1" x.pic_size_in_map_units_minus1,
      nats "slice_group_id" x.slice_group_id]].flatten := by
  unfold SliceGroups.dumpMap
  by_cases h0 : x.slice_group_map_type = 0
  · rw [if_pos h0, opt_pos h0, opt_neg (by omega), opt_neg (by omega), opt_neg (by omega)]
    exact Draws.only (Draws.only (draws_arrU hl) rfl) rfl
  rw [if_neg h0, opt_neg h0]
  refine Draws.nil ?_
  by_cases h2 : x.slice_group_map_type = 2
  · rw [if_pos h2, opt_pos h2, opt_neg (by omega), opt_neg (by omega)]
    refine Draws.only ?_ rfl
    draws
  rw [if_neg h2, opt_neg h2]
  refine Draws.nil ?_
  by_cases h3 : x.slice_group_map_type = 3 ∨ x.slice_group_map_type = 4 ∨ x.slice_group_map_type = 5
  · rw [if_pos h3, opt_pos (by omega), opt_neg (by omega)]
    refine Draws.only ?_ rfl
    draws
  rw [if_neg h3, opt_neg (by omega)]
  refine Draws.nil (Draws.only ?_ rfl)
  draws

theorem pps_draws (x : Pps) {l : Int} (hl : Lev l) : DrawsOne l (x.fdump l) (ppsItem x) := by
  unfold Pps.fdump ppsItem
  refine drawsOne_block hl fun l hl => ?_
  iterate 5 refine draws_cons (draws_fldU hl) ?_
  refine draws_cons ?_ ?_
  · refine draws_when Iff.rfl fun _ _ => draws_cons (draws_fldU hl) ?_
    have h := dumpMap_draws x.toSliceGroups hl
    exact draws_many [_, _, _, _] h (draws_nil _)
  draws

theorem spsSvc_draws {cat : Nat} {x : SpsSvcExt} (hx : x.Ok cat) {l : Int} (hl : Lev l) :
    DrawsOne l (x.fdump l) (spsSvcItem cat x) := by
  have hc := hx.cat
  unfold SpsSvcExt.fdump spsSvcItem
  refine drawsOne_block hl fun l hl => ?_
  subst hc
  draws

theorem subsetSps_draws {x : SubsetSps} (hx : x.InRange) (opts : ParsingOptions) {l : Int} (hl : Lev l) :
    DrawsOne l (x.fdump l opts) (subsetSpsItem opts x) := by
  unfold SubsetSps.fdump subsetSpsItem
  refine drawsOne_block hl fun l hl => ?_
  refine draws_cons (draws_struct hl (spsData_draws hx.sps opts hl)) ?_
  refine draws_many [_, _, _] ?_ (by draws)
  have hsvc := hx.svc
  unfold SubsetSps.dumpProfile
  dsimp only
  generalize x.seq_parameter_set_data.profile_idc = p at hsvc ⊢
  by_cases h1 : p = 83 ∨ p = 86
  · have hp : p ∈ [83, 86] := by simpa using h1
    rw [if_pos (show svcProfile p from h1)] at hsvc
    obtain ⟨y, hy, ok⟩ := hsvc
    rw [if_pos h1, opt_pos hp, opt_neg (by rcases h1 with rfl | rfl <;> decide), opt_neg (by rcases h1 with rfl | rfl <;> decide)]
    refine Draws.only ?_ rfl
    refine draws_cons ?_ (draws_cons (draws_fldU hl) (draws_nil _))
    exact draws_deref hl ⟨y, hy, spsSvc_draws ok hl⟩ (by simp [spsSvcItem, struct])
  rw [if_neg h1, opt_neg (by simpa using h1)]
  refine Draws.nil ?_
  by_cases h2 : p = 118 ∨ p = 128 ∨ p = 134
  · rw [if_pos h2, opt_pos (by rcases h2 with rfl | rfl | rfl <;> decide), opt_pos (by rcases h2 with rfl | rfl | rfl <;> decide)]
    exact draws_cons (Draws.only (draws_fldU hl) rfl) (draws_cons (Draws.only (draws_fldU hl) rfl) (draws_nil _))
  rw [if_neg h2]
  by_cases h3 : p = 138 ∨ p = 135
  · rw [if_pos h3, opt_pos (by rcases h3 with rfl | rfl <;> decide), opt_neg (by rcases h3 with rfl | rfl <;> decide)]
    exact Draws.only (Draws.only (draws_fldU hl) rfl) rfl
  rw [if_neg h3, opt_neg (c := p ∈ [118, 128, 134]) (by simpa using h2)]
  refine Draws.only ?_ rfl
  have : p = 139 ↔ p ∈ [118, 128, 134, 135, 138, 139] := by simp; omega
  exact draws_when this fun _ _ => draws_cons (draws_fldU hl) (draws_nil _)

/-! ### Slices -/

theorem length_pos_ne {α : Type} (v : List α) : v.length > 0 ↔ v ≠ [] := by cases v <;> simp

theorem mod_draws (x : RefPicListMod) {l : Int} (hl : Lev l) : DrawsOne l (x.fdump l) (modItem x) := by
  unfold RefPicListMod.fdump modItem
  refine drawsOne_block hl fun l hl => ?_
  draws
  all_goals exact length_pos_ne _

theorem marking_draws {idr : Nat} {x : DecRefPicMarking} (hx : x.Ok idr) {l : Int} (hl : Lev l) :
    DrawsOne l (x.fdump l) (markingItem idr x) := by
  have h1 := hx.IdrPicFlag
  have h2 := hx.adaptive
  unfold DecRefPicMarking.fdump markingItem
  refine drawsOne_block hl fun l hl => ?_
  refine draws_many [_, _] ?_ (draws_nil _)
  by_cases h0 : x.IdrPicFlag ≠ 0
  · rw [if_pos h0, opt_pos (by omega), opt_neg (by omega)]
    refine Draws.only ?_ rfl
    draws
  · rw [if_neg h0, opt_neg (by omega), opt_pos (by omega)]
    refine Draws.nil (Draws.only ?_ rfl)
    draws

theorem weights_draws {cat t n0 n1 : Nat} (ht : t ≤ 9) {x : PredWeightTable} (hx : x.Ok cat t n0 n1) {l : Int} (hl : Lev l) :
    DrawsOne l (x.fdump l) (weightsItem cat t x) := by
  obtain ⟨hB, _, _⟩ := sliceTypes ht
  unfold PredWeightTable.fdump weightsItem
  rw [hx.chroma_array_type, hx.slice_type]
  refine drawsOne_block hl fun l hl => ?_
  have hf : ∀ ws, cat ≠ 0 → chromaFlags cat ws = ws.map (·.chroma_weight_flag) := by
    intro ws h; unfold chromaFlags; rw [if_pos h]
  draws
  · rw [hf _ (by assumption)]; exact draws_arrU hl
  · rw [hf _ (by assumption)]; exact draws_arrU hl

theorem sliceHeader_draws {ref type : Nat} {s : SpsData} {p : Pps} (hs : s.InRange) (hp : p.InRange) {x : SliceHeader}
    (hx : x.Ok ref type s p) {l : Int} (hl : Lev l) : DrawsOne l (x.fdump l) (sliceHeaderItem ref type s p x) := by
  have ht := hx.range.slice_type
  obtain ⟨hB, hP, hI⟩ := sliceTypes ht
  have hSP : isSP x.slice_type ↔ x.slice_type % 5 = 3 := by unfold isSP; omega
  have hSI : isSI x.slice_type ↔ x.slice_type % 5 = 4 := by unfold isSI; omega
  have hc := hx.copied
  have hfield := hx.range.field
  have hfield : x.field_pic_flag < 2 := by split at hfield <;> omega
  have hov := hx.range.override
  have hov : x.num_ref_idx_active_override_flag < 2 := by split at hov <;> omega
  have f1 := hs.1.separate_colour_plane_flag
  have f2 := hp.weighted_pred_flag
  have f3 := hp.bottom_field
  have f4 := hp.redundant_pic_cnt_present_flag
  have f5 := hp.entropy_coding_mode_flag
  have f6 := hp.deblocking
  have hmark := hx.range.marking
  have hw := hx.range.weights
  rw [hc.nal_ref_idc, hc.nal_unit_type] at hmark
  unfold SliceHeader.fdump sliceHeaderItem
  simp only [hc.separate_colour_plane_flag, hc.frame_mbs_only_flag, hc.nal_unit_type, hc.pic_order_cnt_type, hc.bottom,
    hc.always_zero, hc.redundant, hc.weighted_pred_flag, hc.weighted_bipred_idc, hc.nal_ref_idc, hc.entropy, hc.deblocking,
    hc.num_slice_groups_minus1, hc.slice_group_map_type, hB, hP, hI, hSP, hSI]
  refine drawsOne_block hl fun l hl => ?_
  draws
  · obtain ⟨y, hy, _⟩ := hx.range.modification
    exact draws_deref hl ⟨y, hy, mod_draws y hl⟩ (by simp [modItem, struct])
  · rw [if_pos (by assumption)] at hw
    obtain ⟨y, hy, ok⟩ := hw
    exact draws_deref hl ⟨y, hy, weights_draws ht ok hl⟩ (by simp [weightsItem, struct])
  · unfold weightsPresent; omega
  · rw [if_pos (by assumption)] at hmark
    obtain ⟨y, hy, ok⟩ := hmark
    exact draws_deref hl ⟨y, hy, marking_draws ok hl⟩ (by simp [markingItem, struct])

theorem scalHeader_draws {c : ScalCtx} (hs : c.s.InRange) (hp : c.p.InRange) (hn : c.n.Ok) (he : c.e.Ok (chromaArrayType c.s.toSpsHead))
    {d0 d1 : Nat} {x : ScalHeader} (hx : x.Ok c d0 d1) {l : Int} (hl : Lev l) :
    DrawsOne l (x.fdump l) (scalHeaderItem c x) := by
  have ht := hx.slice_type
  have hB : isB x.slice_type ↔ x.slice_type % 5 = 1 := by unfold isB; omega
  have hP : isEP x.slice_type ↔ x.slice_type % 5 = 0 := by unfold isEP; omega
  have hI : notEI x.slice_type ↔ x.slice_type % 5 ≠ 2 := by unfold notEI; omega
  have hc := hx.copied
  have f1 := hs.1.separate_colour_plane_flag
  have f2 := hp.weighted_pred_flag
  have f3 := hp.bottom_field
  have f4 := hp.redundant_pic_cnt_present_flag
  have f5 := hp.entropy_coding_mode_flag
  have f6 := hp.deblocking
  have f7 := hn.idr_flag
  have f8 := hn.no_inter_layer_pred_flag
  have f9 := hn.use_ref_base_pic_flag
  have f10 := he.restriction
  have f11 := he.deblocking
  have f12 : c.e.adaptive_tcoeff_level_prediction_flag < 2 := by have := he.adaptive; split at this <;> omega
  have hfield : x.pic.field_pic_flag < 2 := by have := hx.pic.field; split at this <;> omega
  unfold ScalHeader.fdump scalHeaderItem
  simp only [hc.quality_id, hc.no_inter_layer_pred_flag, hc.restriction]
  refine drawsOne_block hl fun l hl => ?_
  iterate 3 refine draws_cons (draws_fldU hl) ?_
  refine draws_many [_, _, _, _, _, _, _] ?_ ?_
  · unfold ScalHeader.dumpPic
    simp only [hc.separate_colour_plane_flag, hc.frame_mbs_only_flag, hc.pic_order_cnt_type, hc.bottom,
      hc.always_zero, hc.redundant, hc.idr_flag]
    draws
  refine draws_cons ?_ ?_
  · refine draws_when Iff.rfl fun hq _ => draws_many [_, _, _, _, _] ?_ (draws_nil _)
    have hr := hx.ref
    rw [if_pos hq] at hr
    have hov : x.ref.num_ref_idx_active_override_flag < 2 := by have := hr.override; split at this <;> omega
    unfold ScalHeader.dumpRef
    simp only [hc.weighted_pred_flag, hc.weighted_bipred_idc, if_pos hq, hc.no_inter_layer_pred_flag, hc.nal_ref_idc,
      hc.restriction, hc.idr_flag, hB, hP]
    have hw : (c.p.weighted_pred_flag ≠ 0 ∧ x.slice_type % 5 = 0 ∨ c.p.weighted_bipred_idc = 1 ∧ x.slice_type % 5 = 1) ↔
        scalWeights c.p x.slice_type := by unfold scalWeights; omega
    refine draws_cons (by draws) (draws_cons (by draws) (draws_cons ?_ (draws_cons ?_ (draws_cons ?_ (draws_nil _)))))
    · obtain ⟨y, hy, _⟩ := hr.modification
      exact draws_deref hl ⟨y, hy, mod_draws y hl⟩ (by simp [modItem, struct])
    · refine draws_when hw fun _ hw => draws_cons (by draws) (draws_cons ?_ (draws_nil _))
      refine draws_when (by omega) fun _ hb => draws_cons ?_ (draws_nil _)
      have h := hr.weights
      rw [if_pos ⟨hw, hb⟩] at h
      obtain ⟨y, hy, ok⟩ := h
      exact draws_deref hl ⟨y, hy, weights_draws ht ok hl⟩ (by simp [weightsItem, struct])
    · refine draws_when Iff.rfl fun h1 _ => draws_cons ?_ (draws_cons ?_ (draws_nil _))
      · have h := hr.marking
        rw [if_pos h1] at h
        obtain ⟨y, hy, ok⟩ := h
        exact draws_deref hl ⟨y, hy, marking_draws ok hl⟩ (by simp [markingItem, struct])
      · refine draws_when Iff.rfl fun h2 _ => draws_cons (draws_fldU hl) (draws_many [] ?_ (draws_nil _))
        have h3 := hr.store
        rw [if_pos ⟨h1, h2⟩] at h3
        have h4 := hr.no_base_marking h1 h2
        have h5 := hc.use_ref_base_pic_flag
        rw [if_pos ⟨hq, h1, h2⟩] at h5
        unfold whenD
        rw [if_neg (by omega)]
        exact draws_none l
  refine draws_many [_, _, _, _] ?_ ?_
  · unfold ScalHeader.dumpQp
    simp only [hc.entropy, hc.deblocking, hc.num_slice_groups_minus1, hc.slice_group_map_type, hI]
    draws
  refine draws_cons ?_ ?_
  · refine draws_when Iff.rfl fun hq _ => draws_many [_, _, _, _] ?_ (draws_nil _)
    unfold ScalHeader.dumpLayer
    simp only [hc.layer_deblocking, hc.ess, if_pos hq]
    have hcat : c.e.extended_spatial_scalability_idc = 2 → x.ChromaArrayType = chromaArrayType c.s.toSpsHead := by
      intro h; rw [hx.cat, if_pos (.inr ⟨hq.1, hq.2, h⟩)]
    draws
  refine draws_cons ?_ ?_
  · refine draws_when Iff.rfl fun hq _ => draws_many [_, _, _, _] ?_ (draws_nil _)
    have hr := hx.pred
    rw [if_pos hq] at hr
    unfold ScalHeader.dumpPred
    simp only [hc.tcoeff, if_pos hq]
    refine draws_cons (draws_fldU hl) ?_
    refine draws_many [_, _] ?_ (by draws)
    have hk := hr.skip
    by_cases h0 : x.pred.slice_skip_flag ≠ 0
    · rw [if_pos h0, opt_pos (by omega), opt_neg (by omega)]
      exact Draws.only (Draws.only (draws_fldU hl) rfl) rfl
    · rw [if_neg h0, opt_neg (by omega), opt_pos (by omega)]
      refine Draws.nil (Draws.only ?_ rfl)
      draws
  draws
