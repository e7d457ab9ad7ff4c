import Mathlib.Data.List.Forall2
import Verif.DpbText
import Verif.Spec.DpbScript

/-
What the script reads from the text of NAL units (Spec/DumpItems.lean).
-/

namespace H264.Dpb
open H264.Shown H264.Script

theorem dpbOpts : toolOptions dpbArgs =
    { add_offset := false, add_length := false, add_parsed_length := false, add_checksum := false, add_resolution := false } := by decide

/-- The items of a NAL unit. -/
def items (σ : Store) (x : NalUnit) : List Item := [
  [headerItem x.nal_unit_header],
  [payloadItem σ (toolOptions dpbArgs) x.nal_unit_header x.nal_unit_payload]].flatten

theorem nalUnitItem_items (σ : Store) (bytes : List UInt8) (x : NalUnit) :
    nalUnitItem σ (toolOptions dpbArgs) bytes x = .group "nal_unit" (items σ x) := by
  unfold nalUnitItem items struct
  rw [dpbOpts]
  simp [Shown.opt]

theorem items_goods (σ : Store) (x : NalUnit) : Goods (items σ x) := by
  have := nalUnit_good σ (toolOptions dpbArgs) [] x
  rw [nalUnitItem_items, Good] at this
  exact this.2

theorem search_end {key : List Char} (h : Key key [] isDec) : search (lit key []) isDec "\n}\n".toList = none := by
  rw [show "\n}\n".toList = ['\n', '}', '\n'] by decide, search_skip h (by decide), search_skip h (by decide), search_skip h (by decide)]
  rw [search, matchAt_none]
  rw [List.prefix_nil]
  unfold lit
  simp

theorem field_eq {name : String} (h : Key name.toList [] isDec) {is : List Item} (hg : Goods is) :
    field name (unitBody is) = (foundIn name.toList [] isDec is).map (number 10) := by
  have e : name.toList ++ ": ".toList = lit name.toList [] := by unfold lit; simp
  unfold field
  rw [e, search_body h hg (search_end h)]

/-- A key of a search for a number. -/
def NumKey (name : String) : Prop := Key name.toList [] isDec
theorem numKey {name : String} (h : name.toList ≠ [] ∧ ∀ c ∈ name.toList, wordChar c = true) : NumKey name :=
  ⟨h.1, h.2, by simp, cls_plain (by decide)⟩

theorem read_nal_type (σ : Store) (x : NalUnit) : field "nal_unit_type" (unitBody (items σ x)) = some x.nal_unit_header.nal_unit_type := by
  rw [field_eq key_type (items_goods σ x), items,
    foundIn_first (g := (toString x.nal_unit_header.nal_unit_type).toList) (by rw [foundIn_one]; exact header_found rfl _),
    Option.map_some, (number_nat _).2.1]

theorem header_ref (n : NalHeader) : found "nal_ref_idc".toList [] isDec (headerItem n) = some (toString n.nal_ref_idc).toList := by
  unfold headerItem
  rw [found_struct]
  pass
  exact foundIn_first (hit_nat (by decide))

theorem read_ref (σ : Store) (x : NalUnit) : field "nal_ref_idc" (unitBody (items σ x)) = some x.nal_unit_header.nal_ref_idc := by
  rw [field_eq (numKey (by decide)) (items_goods σ x), items, foundIn_first (by rw [foundIn_one]; exact header_ref _),
    Option.map_some, (number_nat _).2.1]

theorem header_none {key : List Char} {n : NalHeader} (ht : n.nal_unit_type ≠ 14 ∧ n.nal_unit_type ≠ 20 ∧ n.nal_unit_type ≠ 21)
    (h1 : key.isSuffixOf "forbidden_zero_bit".toList = false) (h2 : key.isSuffixOf "nal_ref_idc".toList = false)
    (h3 : key.isSuffixOf "nal_unit_type".toList = false) : found key [] isDec (headerItem n) = none := by
  unfold headerItem
  rw [found_struct, Shown.opt, if_neg (by omega), Shown.opt, if_neg (by omega)]
  exact skip_cons (skip_nat h1) (skip_cons (skip_nat h2) (skip_cons (skip_nat h3) rfl))

theorem header_br {key : List Char} {n : NalHeader} (ht : n.nal_unit_type ≠ 14 ∧ n.nal_unit_type ≠ 20 ∧ n.nal_unit_type ≠ 21) :
    brFound key (headerItem n) = none := by
  unfold headerItem
  rw [br_struct, Shown.opt, if_neg (by omega), Shown.opt, if_neg (by omega)]
  exact bskip_cons bskip_nat (bskip_cons bskip_nat (bskip_cons bskip_nat rfl))

/-! ### Parameter sets -/

/-- Not in a NAL unit header. -/
def Outside (name : String) : Prop :=
  name.toList.isSuffixOf "forbidden_zero_bit".toList = false ∧ name.toList.isSuffixOf "nal_ref_idc".toList = false ∧
  name.toList.isSuffixOf "nal_unit_type".toList = false

theorem field_sps {name : String} (hk : NumKey name) (ho : Outside name) (σ : Store) {x : NalUnit} (h7 : x.nal_unit_header.nal_unit_type = 7)
    {s : SpsData} (hs : x.nal_unit_payload.sps = some s) {v : Nat}
    (hv : found name.toList [] isDec (spsDataItem (toolOptions dpbArgs) s) = some (toString v).toList) :
    need name (unitBody (items σ x)) = .ok v := by
  unfold need
  rw [field_eq hk (items_goods σ x), items, foundIn_step (by rw [foundIn_one]; exact header_none (by omega) ho.1 ho.2.1 ho.2.2)]
  rw [List.flatten_cons, List.flatten_nil, List.append_nil, foundIn_one, payloadItem, found_struct, h7, if_neg (by decide), if_pos rfl,
    List.flatten_cons, List.flatten_nil, List.append_nil, hs, line, foundIn_one, spsItem, found_struct, List.flatten_cons, List.flatten_nil,
    List.append_nil, foundIn_one, hv, Option.map_some, (number_nat _).2.1]

theorem sps_log2 (opts : ParsingOptions) (s : SpsData) :
    found "log2_max_frame_num_minus4".toList [] isDec (spsDataItem opts s) = some (toString s.log2_max_frame_num_minus4).toList := by
  unfold spsDataItem
  rw [found_struct]
  pass
  exact foundIn_first (hit_nat (by decide +kernel))
theorem sps_max (opts : ParsingOptions) (s : SpsData) :
    found "max_num_ref_frames".toList [] isDec (spsDataItem opts s) = some (toString s.max_num_ref_frames).toList := by
  unfold spsDataItem
  rw [found_struct]
  pass
  exact foundIn_first (hit_nat (by decide +kernel))
theorem sps_poc (opts : ParsingOptions) (s : SpsData) :
    found "pic_order_cnt_type".toList [] isDec (spsDataItem opts s) = some (toString s.pic_order_cnt_type).toList := by
  unfold spsDataItem
  rw [found_struct]
  pass
  exact foundIn_first (hit_nat (by decide +kernel))

/-- What is kept of an SPS. -/
def spsOf (s : SpsData) : Sps := ⟨s.log2_max_frame_num_minus4, s.max_num_ref_frames, s.pic_order_cnt_type⟩

theorem read_sps (σ : Store) {x : NalUnit} (h7 : x.nal_unit_header.nal_unit_type = 7) {s : SpsData} (hs : x.nal_unit_payload.sps = some s) :
    readSps (unitBody (items σ x)) = .ok (spsOf s) := by
  unfold readSps
  rw [field_sps (numKey (by decide)) (by unfold Outside; decide) σ h7 hs (sps_log2 _ s),
    field_sps (numKey (by decide)) (by unfold Outside; decide) σ h7 hs (sps_max _ s),
    field_sps (numKey (by decide)) (by unfold Outside; decide) σ h7 hs (sps_poc _ s)]
  rfl

theorem read_pps (σ : Store) {x : NalUnit} (h8 : x.nal_unit_header.nal_unit_type = 8) {p : Pps} (hp : x.nal_unit_payload.pps = some p) :
    need "num_ref_idx_l0_default_active_minus1" (unitBody (items σ x)) = .ok p.num_ref_idx_l0_default_active_minus1 := by
  have hv : found "num_ref_idx_l0_default_active_minus1".toList [] isDec (ppsItem p) = some (toString p.num_ref_idx_l0_default_active_minus1).toList := by
    unfold ppsItem
    rw [found_struct]
    pass
    exact foundIn_first (hit_nat (by decide +kernel))
  unfold need
  rw [field_eq (numKey (by decide)) (items_goods σ x), items,
    foundIn_step (by rw [foundIn_one]; exact header_none (by omega) (by decide) (by decide) (by decide))]
  rw [List.flatten_cons, List.flatten_nil, List.append_nil, foundIn_one, payloadItem, found_struct, h8, if_neg (by decide), if_neg (by decide), if_pos rfl,
    List.flatten_cons, List.flatten_nil, List.append_nil, hp, line, foundIn_one, hv, Option.map_some, (number_nat _).2.1]

/-! ### Slices -/

/-- A slice with its header and what it refers to. -/
structure Sliced (σ : Store) (x : NalUnit) (s : SpsData) (p : Pps) (h : SliceHeader) : Prop where
  type : x.nal_unit_header.nal_unit_type = 1 ∨ x.nal_unit_header.nal_unit_type = 5
  layer : ∃ y, x.nal_unit_payload.slice_layer_without_partitioning_rbsp = some y ∧ y.slice_header = some h
  sets : setsOf σ h.pic_parameter_set_id = some (s, p)
  ok : h.Ok x.nal_unit_header.nal_ref_idc x.nal_unit_header.nal_unit_type s p

section
variable {σ : Store} {x : NalUnit} {s : SpsData} {p : Pps} {h : SliceHeader}

/-- The item of the slice header. -/
abbrev Sliced.item (_ : Sliced σ x s p h) : Item := sliceHeaderItem x.nal_unit_header.nal_ref_idc x.nal_unit_header.nal_unit_type s p h

theorem Sliced.field (H : Sliced σ x s p h) {name : String} (hk : NumKey name) (ho : Outside name) :
    field name (unitBody (items σ x)) = (found name.toList [] isDec H.item).map (number 10) := by
  obtain ⟨y, hy, hh⟩ := H.layer
  have ht := H.type
  rw [field_eq hk (items_goods σ x), items, foundIn_step (by rw [foundIn_one]; exact header_none (by omega) ho.1 ho.2.1 ho.2.2)]
  rw [List.flatten_cons, List.flatten_nil, List.append_nil, foundIn_one, payloadItem, found_struct, if_pos (by simp [ht]),
    List.flatten_cons, List.flatten_nil, List.append_nil, hy, line, foundIn_one, sliceLayerItem, found_struct, hh]
  dsimp only
  rw [List.flatten_cons, List.flatten_nil,
    List.append_nil, sliceHeaderIn, H.sets, part, foundIn_one]

theorem Sliced.list (H : Sliced σ x s p h) {name : String} (hk : BrKey name.toList) :
    listOf name (unitBody (items σ x)) = asInts (brFound name.toList H.item) := by
  obtain ⟨y, hy, hh⟩ := H.layer
  have ht := H.type
  rw [listOf_eq, br_body hk (items_goods σ x), items, brIn_step (by rw [brIn_one]; exact header_br (by omega))]
  rw [List.flatten_cons, List.flatten_nil, List.append_nil, brIn_one, payloadItem, br_struct, if_pos (by simp [ht]),
    List.flatten_cons, List.flatten_nil, List.append_nil, hy, line, brIn_one, sliceLayerItem, br_struct, hh]
  dsimp only
  rw [List.flatten_cons, List.flatten_nil,
    List.append_nil, sliceHeaderIn, H.sets, part, brIn_one]

theorem Sliced.number (H : Sliced σ x s p h) {name : String} (hk : NumKey name) (ho : Outside name) {v : Nat}
    (hv : found name.toList [] isDec H.item = some (toString v).toList) : Dpb.field name (unitBody (items σ x)) = some v := by
  rw [H.field hk ho, hv, Option.map_some, (number_nat _).2.1]

theorem Sliced.absent (H : Sliced σ x s p h) {name : String} (hk : NumKey name) (ho : Outside name)
    (hv : found name.toList [] isDec H.item = none) : Dpb.field name (unitBody (items σ x)) = none := by
  rw [H.field hk ho, hv]; rfl

theorem Sliced.first_mb (H : Sliced σ x s p h) : Dpb.field "first_mb_in_slice" (unitBody (items σ x)) = some h.first_mb_in_slice := by
  refine H.number (numKey (by decide)) (by unfold Outside; decide) ?_
  rw [Sliced.item, sliceHeaderItem, found_struct]
  exact foundIn_first (hit_nat (by decide +kernel))
theorem Sliced.slice_type (H : Sliced σ x s p h) : Dpb.field "slice_type" (unitBody (items σ x)) = some h.slice_type := by
  refine H.number (numKey (by decide)) (by unfold Outside; decide) ?_
  rw [Sliced.item, sliceHeaderItem, found_struct]
  pass
  exact foundIn_first (hit_nat (by decide +kernel))
theorem Sliced.frame_num (H : Sliced σ x s p h) : Dpb.field "frame_num" (unitBody (items σ x)) = some h.frame_num := by
  refine H.number (numKey (by decide)) (by unfold Outside; decide) ?_
  rw [Sliced.item, sliceHeaderItem, found_struct]
  pass
  exact foundIn_first (hit_nat (by decide +kernel))

theorem mod_skip {key : List Char} (h1 : key.isSuffixOf "ref_pic_list_modification_flag_l0".toList = false)
    (h2 : key.isSuffixOf "ref_pic_list_modification_flag_l1".toList = false) (m : RefPicListMod) : found key [] isDec (modItem m) = none := by
  unfold modItem
  rw [found_struct]
  exact skip_cons (skip_nat h1) (skip_cons (skip_nat h2) (by skip_items))
theorem weights_skip {key : List Char} (h1 : key.isSuffixOf "luma_log2_weight_denom".toList = false)
    (h2 : key.isSuffixOf "chroma_log2_weight_denom".toList = false) (c t : Nat) (m : PredWeightTable) :
    found key [] isDec (weightsItem c t m) = none := by
  unfold weightsItem
  rw [found_struct]
  refine skip_cons (skip_nat h1) (skip_cons (skip_opt (skip_cons (skip_nat h2) skip_nil)) ?_)
  skip_items
theorem marking_skip {key : List Char} (h1 : key.isSuffixOf "no_output_of_prior_pics_flag".toList = false)
    (h2 : key.isSuffixOf "long_term_reference_flag".toList = false) (h3 : key.isSuffixOf "adaptive_ref_pic_marking_mode_flag".toList = false)
    (i : Nat) (m : DecRefPicMarking) : found key [] isDec (markingItem i m) = none := by
  unfold markingItem
  rw [found_struct]
  refine skip_cons (skip_opt (skip_cons (skip_nat h1) (skip_cons (skip_nat h2) skip_nil))) (skip_cons (skip_opt (skip_cons (skip_nat h3) ?_)) skip_nil)
  skip_items

theorem weights_br {key : List Char} (hk : key = "memory_management_control_operation".toList ∨ key = "difference_of_pic_nums_minus1".toList ∨
    key = "long_term_frame_idx".toList ∨ key = "max_long_term_frame_idx_plus1".toList ∨ key = "abs_diff_pic_num_minus1".toList ∨
    key = "long_term_pic_num".toList) (c t : Nat) (m : PredWeightTable) : brFound key (weightsItem c t m) = none := by
  unfold weightsItem
  rw [br_struct]
  rcases hk with rfl | rfl | rfl | rfl | rfl | rfl <;> bskip_items

theorem mod_br {key : List Char} (hk : key = "memory_management_control_operation".toList ∨ key = "difference_of_pic_nums_minus1".toList ∨
    key = "long_term_frame_idx".toList ∨ key = "max_long_term_frame_idx_plus1".toList) (m : RefPicListMod) : brFound key (modItem m) = none := by
  unfold modItem
  rw [br_struct]
  rcases hk with rfl | rfl | rfl | rfl <;> bskip_items

theorem nonref_none (H : Sliced σ x s p h) (hr : x.nal_unit_header.nal_ref_idc = 0) : h.dec_ref_pic_marking = none := by
  have := H.ok.range.marking
  rw [H.ok.copied.nal_ref_idc, if_neg (by simp [hr])] at this
  exact this

theorem ref_some (H : Sliced σ x s p h) (hr : x.nal_unit_header.nal_ref_idc ≠ 0) :
    ∃ d, h.dec_ref_pic_marking = some d ∧ d.Ok (if x.nal_unit_header.nal_unit_type = 5 then 1 else 0) := by
  have := H.ok.range.marking
  rw [H.ok.copied.nal_ref_idc, if_pos hr, H.ok.copied.nal_unit_type] at this
  exact this

theorem Sliced.override (H : Sliced σ x s p h) :
    Dpb.field "num_ref_idx_active_override_flag" (unitBody (items σ x)) = some 1 ↔ h.num_ref_idx_active_override_flag = 1 := by
  by_cases hc : h.slice_type % 5 = 0 ∨ h.slice_type % 5 = 3 ∨ h.slice_type % 5 = 1
  · rw [H.number (v := h.num_ref_idx_active_override_flag) (numKey (by decide)) (by unfold Outside; decide)]
    · simp
    · rw [Sliced.item, sliceHeaderItem, found_struct]
      pass
      refine foundIn_first ?_
      rw [Shown.opt, if_pos hc]
      exact foundIn_first (hit_nat (by decide +kernel))
  · rw [H.absent (numKey (by decide)) (by unfold Outside; decide)]
    · have := H.ok.range.override
      rw [if_neg hc] at this
      simp [this]
    · rw [Sliced.item, sliceHeaderItem, found_struct]
      pass
      refine skip_cons ?_ ?_
      · rw [Shown.opt, if_neg hc]; rfl
      refine skip_cons (skip_part (mod_skip (by decide +kernel) (by decide +kernel))) ?_
      refine skip_cons (skip_opt (skip_cons (skip_part (weights_skip (by decide +kernel) (by decide +kernel) _ _)) skip_nil)) ?_
      refine skip_cons (skip_opt (skip_cons (skip_part (marking_skip (by decide +kernel) (by decide +kernel) (by decide +kernel) _)) skip_nil)) ?_
      skip_items

theorem Sliced.l0_active (H : Sliced σ x s p h) (ho : h.num_ref_idx_active_override_flag = 1) :
    Dpb.field "num_ref_idx_l0_active_minus1" (unitBody (items σ x)) = some h.num_ref_idx_l0_active_minus1 := by
  have hc : h.slice_type % 5 = 0 ∨ h.slice_type % 5 = 3 ∨ h.slice_type % 5 = 1 := by
    refine Classical.byContradiction fun hc => ?_
    have := H.ok.range.override
    rw [if_neg hc, ho] at this
    cases this
  refine H.number (numKey (by decide)) (by unfold Outside; decide) ?_
  rw [Sliced.item, sliceHeaderItem, found_struct]
  pass
  refine foundIn_first ?_
  rw [Shown.opt, if_pos hc]
  pass
  refine foundIn_first ?_
  rw [Shown.opt, if_pos ho]
  exact foundIn_first (hit_nat (by decide +kernel))

theorem Sliced.active (H : Sliced σ x s p h) (q : Option Pps) :
    readActive (q.map (·.num_ref_idx_l0_default_active_minus1)) (unitBody (items σ x)) = .ok (Spec.pictureOf q x.nal_unit_header h).active := by
  unfold readActive Spec.pictureOf
  dsimp only
  by_cases ho : h.num_ref_idx_active_override_flag = 1
  · rw [if_pos (H.override.mpr ho), if_pos ho, need, H.l0_active ho]
    rfl
  · rw [if_neg (fun hx => ho (H.override.mp hx)), if_neg ho]
    cases q <;> rfl

theorem Sliced.l0_flag (H : Sliced σ x s p h) {m : RefPicListMod} (hm : h.ref_pic_list_modification = some m) :
    Dpb.field "ref_pic_list_modification_flag_l0" (unitBody (items σ x)) = some m.ref_pic_list_modification_flag_l0 := by
  refine H.number (numKey (by decide)) (by unfold Outside; decide) ?_
  rw [Sliced.item, sliceHeaderItem, found_struct]
  pass
  rw [hm, part]
  refine foundIn_first ?_
  rw [foundIn_one, modItem, found_struct]
  exact foundIn_first (hit_nat (by decide +kernel))

theorem Sliced.long_flag (H : Sliced σ x s p h) (ht : x.nal_unit_header.nal_unit_type = 5) :
    (Dpb.field "long_term_reference_flag" (unitBody (items σ x))).getD 0 = match h.dec_ref_pic_marking with | some d => d.long_term_reference_flag | none => 0 := by
  by_cases hr : x.nal_unit_header.nal_ref_idc = 0
  · rw [nonref_none H hr, H.absent (numKey (by decide)) (by unfold Outside; decide)]
    · rfl
    rw [Sliced.item, sliceHeaderItem, found_struct]
    pass
    refine skip_cons (skip_part (mod_skip (by decide +kernel) (by decide +kernel))) ?_
    refine skip_cons (skip_opt (skip_cons (skip_part (weights_skip (by decide +kernel) (by decide +kernel) _ _)) skip_nil)) ?_
    refine skip_cons ?_ ?_
    · rw [Shown.opt, if_neg (by simp [hr])]; rfl
    skip_items
  · obtain ⟨d, hd, _⟩ := ref_some H hr
    rw [hd, H.number (v := d.long_term_reference_flag) (numKey (by decide)) (by unfold Outside; decide)]
    · rfl
    rw [Sliced.item, sliceHeaderItem, found_struct]
    pass
    refine Eq.trans (foundIn_step (skip_part (mod_skip (by decide +kernel) (by decide +kernel)))) ?_
    refine Eq.trans (foundIn_step (skip_opt (skip_cons (skip_part (weights_skip (by decide +kernel) (by decide +kernel) _ _)) skip_nil))) ?_
    refine foundIn_first ?_
    rw [Shown.opt, if_pos hr, hd, part]
    refine foundIn_first ?_
    rw [foundIn_one, markingItem, found_struct]
    refine foundIn_first ?_
    rw [Shown.opt, if_pos (by simp [ht])]
    pass
    exact foundIn_first (hit_nat (by decide +kernel))

theorem Sliced.adaptive (H : Sliced σ x s p h) :
    Dpb.field "adaptive_ref_pic_marking_mode_flag" (unitBody (items σ x)) = some 1 ↔
      ∃ d, h.dec_ref_pic_marking = some d ∧ d.adaptive_ref_pic_marking_mode_flag = 1 := by
  by_cases hr : x.nal_unit_header.nal_ref_idc = 0
  · rw [nonref_none H hr, H.absent (numKey (by decide)) (by unfold Outside; decide)]
    · simp
    rw [Sliced.item, sliceHeaderItem, found_struct]
    pass
    refine skip_cons (skip_part (mod_skip (by decide +kernel) (by decide +kernel))) ?_
    refine skip_cons (skip_opt (skip_cons (skip_part (weights_skip (by decide +kernel) (by decide +kernel) _ _)) skip_nil)) ?_
    refine skip_cons ?_ ?_
    · rw [Shown.opt, if_neg (by simp [hr])]; rfl
    skip_items
  · obtain ⟨d, hd, ok⟩ := ref_some H hr
    by_cases ht : x.nal_unit_header.nal_unit_type = 5
    · rw [H.absent (numKey (by decide)) (by unfold Outside; decide)]
      · rw [if_pos ht] at ok
        have := ok.isIdr (by simp)
        simp [hd, this]
      rw [Sliced.item, sliceHeaderItem, found_struct]
      pass
      refine skip_cons (skip_part (mod_skip (by decide +kernel) (by decide +kernel))) ?_
      refine skip_cons (skip_opt (skip_cons (skip_part (weights_skip (by decide +kernel) (by decide +kernel) _ _)) skip_nil)) ?_
      refine skip_cons ?_ ?_
      · rw [if_pos ht, hd, part, markingItem]
        refine skip_opt (skip_cons ?_ skip_nil)
        rw [foundIn_one, found_struct]
        refine skip_cons (by skip_items) (skip_cons ?_ skip_nil)
        unfold Shown.opt
        rw [if_neg (by decide)]
        rfl
      skip_items
    · rw [H.number (v := d.adaptive_ref_pic_marking_mode_flag) (numKey (by decide)) (by unfold Outside; decide)]
      · simp [hd]
      rw [Sliced.item, sliceHeaderItem, found_struct]
      pass
      refine Eq.trans (foundIn_step (skip_part (mod_skip (by decide +kernel) (by decide +kernel)))) ?_
      refine Eq.trans (foundIn_step (skip_opt (skip_cons (skip_part (weights_skip (by decide +kernel) (by decide +kernel) _ _)) skip_nil))) ?_
      refine foundIn_first ?_
      rw [Shown.opt, if_pos hr, hd, part]
      refine foundIn_first ?_
      rw [foundIn_one, markingItem, found_struct]
      pass
      refine foundIn_first ?_
      rw [Shown.opt, if_pos (by simp [ht])]
      exact foundIn_first (hit_nat (by decide +kernel))

/-- The lists of operations. -/
theorem Sliced.ops_list (H : Sliced σ x s p h) {d : DecRefPicMarking} (hd : h.dec_ref_pic_marking = some d)
    (ha : d.adaptive_ref_pic_marking_mode_flag = 1) {name : String} (hn : name.toList = "memory_management_control_operation".toList ∨
      name.toList = "difference_of_pic_nums_minus1".toList ∨ name.toList = "long_term_frame_idx".toList ∨ name.toList = "max_long_term_frame_idx_plus1".toList)
    (hk : BrKey name.toList) {vs : List Nat}
    (hv : ∃ g, brFoundIn name.toList ([nats "memory_management_control_operation" d.memory_management_control_operation,
      nats "difference_of_pic_nums_minus1" d.difference_of_pic_nums_minus1, nats "long_term_pic_num" d.long_term_pic_num,
      nats "long_term_frame_idx" d.long_term_frame_idx, nats "max_long_term_frame_idx_plus1" d.max_long_term_frame_idx_plus1] : List (List Item)).flatten = some g ∧
      asInts (some g) = .ok vs) : listOf name (unitBody (items σ x)) = .ok vs := by
  obtain ⟨g, h1, h2⟩ := hv
  have hr : x.nal_unit_header.nal_ref_idc ≠ 0 := by
    intro hr
    rw [nonref_none H hr] at hd
    cases hd
  obtain ⟨d2, hd2, ok⟩ := ref_some H hr
  rw [hd] at hd2
  cases hd2
  have ht : x.nal_unit_header.nal_unit_type ≠ 5 := by
    intro ht
    rw [if_pos ht] at ok
    have := ok.isIdr (by simp)
    omega
  rw [H.list hk, ← h2]
  congr 1
  rw [Sliced.item, sliceHeaderItem, br_struct]
  have hi : ∀ vs : List Int, brFoundIn name.toList (ints "delta_pic_order_cnt" vs) = none := by
    intro vs
    refine bskip_ints ?_
    rcases hn with e | e | e | e <;> (rw [e]; decide +kernel)
  iterate 7 refine Eq.trans (brIn_step (by bskip_items)) ?_
  refine Eq.trans (brIn_step (bskip_opt (by bskip_items))) ?_
  refine Eq.trans (brIn_step (bskip_opt (bskip_cons (hi _) bskip_nil))) ?_
  iterate 3 refine Eq.trans (brIn_step (by bskip_items)) ?_
  refine Eq.trans (brIn_step (bskip_part (mod_br hn))) ?_
  refine Eq.trans (brIn_step (bskip_opt (bskip_cons (bskip_part (weights_br (by
    rcases hn with e | e | e | e <;> simp only [e, true_or, or_true]) _ _)) bskip_nil))) ?_
  refine brIn_first ?_
  rw [Shown.opt, if_pos hr, hd, part]
  refine brIn_first ?_
  rw [brIn_one, markingItem, br_struct]
  refine Eq.trans (brIn_step (by bskip_items)) ?_
  refine brIn_first ?_
  rw [Shown.opt, if_pos (by simp [ht])]
  refine Eq.trans (brIn_step bskip_nat) ?_
  refine brIn_first ?_
  rw [Shown.opt, if_pos ha]
  exact h1

theorem brIn_front {key : List Char} {a b : List Item} {rest : List (List Item)} (h : brFoundIn key rest.flatten = none) :
    brFoundIn key (a :: b :: rest).flatten = brFoundIn key [a, b].flatten := by
  rw [List.flatten_cons, List.flatten_cons, brIn_append, brIn_append, h, List.flatten_cons, List.flatten_cons, List.flatten_nil,
    List.append_nil, brIn_append, Option.or_none]

/-- What is in front of the modifications. -/
theorem Sliced.to_mod (H : Sliced σ x s p h) {m : RefPicListMod} (hm : h.ref_pic_list_modification = some m) {key : List Char}
    (hk : key = "modification_of_pic_nums_idc".toList ∨ key = "abs_diff_pic_num_minus1".toList ∨ key = "long_term_pic_num".toList) :
    brFound key H.item = (brFound key (modItem m)).or (brFoundIn key [
      Shown.opt (weightsPresent p h.slice_type) [part h.pred_weight_table (weightsItem (chromaArrayType s.toSpsHead) h.slice_type)],
      Shown.opt (x.nal_unit_header.nal_ref_idc ≠ 0) [part h.dec_ref_pic_marking (markingItem (if x.nal_unit_header.nal_unit_type = 5 then 1 else 0))]].flatten) := by
  rw [Sliced.item, sliceHeaderItem, br_struct]
  have hi : ∀ vs : List Int, brFoundIn key (ints "delta_pic_order_cnt" vs) = none := by
    intro vs
    refine bskip_ints ?_
    rcases hk with e | e | e <;> (rw [e]; decide +kernel)
  iterate 7 refine Eq.trans (brIn_step (by bskip_items)) ?_
  refine Eq.trans (brIn_step (bskip_opt (by bskip_items))) ?_
  refine Eq.trans (brIn_step (bskip_opt (bskip_cons (hi _) bskip_nil))) ?_
  iterate 3 refine Eq.trans (brIn_step (by bskip_items)) ?_
  rw [List.flatten_cons, brIn_append, hm, part, brIn_one]
  rw [brIn_front (key := key) (by bskip_items)]

theorem mod_lists {m : RefPicListMod} (hf : m.ref_pic_list_modification_flag_l0 = 1) :
    ∃ g, brFound "modification_of_pic_nums_idc".toList (modItem m) = some g ∧ asInts (some g) = .ok m.modification_of_pic_nums_idc := by
  obtain ⟨g, h1, h2⟩ := asInts_nats (key := "modification_of_pic_nums_idc".toList) (name := "modification_of_pic_nums_idc") (by decide +kernel) m.modification_of_pic_nums_idc
  refine ⟨g, ?_, h2⟩
  have hne : m.modification_of_pic_nums_idc ≠ [] := by unfold RefPicListMod.modification_of_pic_nums_idc; simp [hf]
  rw [modItem, br_struct]
  iterate 2 refine Eq.trans (brIn_step bskip_nat) ?_
  refine brIn_first ?_
  rw [Shown.opt, if_pos hne]
  exact brIn_first h1

theorem Sliced.mod_idc (H : Sliced σ x s p h) {m : RefPicListMod} (hm : h.ref_pic_list_modification = some m) (hf : m.ref_pic_list_modification_flag_l0 = 1) :
    listOf "modification_of_pic_nums_idc" (unitBody (items σ x)) = .ok m.modification_of_pic_nums_idc := by
  obtain ⟨g, h1, h2⟩ := mod_lists hf
  rw [H.list ⟨by decide, by decide⟩, H.to_mod hm (.inl rfl), h1]
  exact h2

theorem Sliced.mod_diff (H : Sliced σ x s p h) {m : RefPicListMod} (hm : h.ref_pic_list_modification = some m) :
    listOf "abs_diff_pic_num_minus1" (unitBody (items σ x)) = .ok m.abs_diff_pic_num_minus1 := by
  rw [H.list ⟨by decide, by decide⟩, H.to_mod hm (.inr (.inl rfl))]
  by_cases hne : m.abs_diff_pic_num_minus1 = []
  · have h1 : brFound "abs_diff_pic_num_minus1".toList (modItem m) = none := by
      rw [modItem, br_struct, hne]
      iterate 2 refine bskip_cons bskip_nat ?_
      refine bskip_cons (by bskip_items) ?_
      refine bskip_cons ?_ (by bskip_items)
      unfold Shown.opt
      rw [if_neg (by simp)]
      rfl
    rw [h1, hne, Option.none_or]
    have h2 : brFoundIn "abs_diff_pic_num_minus1".toList [
      Shown.opt (weightsPresent p h.slice_type) [part h.pred_weight_table (weightsItem (chromaArrayType s.toSpsHead) h.slice_type)],
      Shown.opt (x.nal_unit_header.nal_ref_idc ≠ 0) [part h.dec_ref_pic_marking (markingItem (if x.nal_unit_header.nal_unit_type = 5 then 1 else 0))]].flatten = none := by
      refine bskip_cons (bskip_opt (bskip_cons (bskip_part (weights_br (by simp only [true_or, or_true]) _ _)) bskip_nil)) ?_
      refine bskip_cons (bskip_opt (bskip_cons (bskip_part fun d => ?_) bskip_nil)) bskip_nil
      rw [markingItem, br_struct]
      bskip_items
    rw [h2]
    rfl
  · obtain ⟨g, h1, h2⟩ := asInts_nats (key := "abs_diff_pic_num_minus1".toList) (name := "abs_diff_pic_num_minus1") (by decide +kernel) m.abs_diff_pic_num_minus1
    have h3 : brFound "abs_diff_pic_num_minus1".toList (modItem m) = some g := by
      rw [modItem, br_struct]
      iterate 2 refine Eq.trans (brIn_step bskip_nat) ?_
      refine Eq.trans (brIn_step (by bskip_items)) ?_
      refine brIn_first ?_
      rw [Shown.opt, if_pos hne]
      exact brIn_first h1
    rw [h3]
    exact h2

theorem Sliced.mod_long (H : Sliced σ x s p h) {m : RefPicListMod} (hm : h.ref_pic_list_modification = some m) :
    ∃ c, listOf "long_term_pic_num" (unitBody (items σ x)) = .ok (m.long_term_pic_num ++ c) := by
  rw [H.list ⟨by decide, by decide⟩, H.to_mod hm (.inr (.inr rfl))]
  by_cases hne : m.long_term_pic_num = []
  · have h1 : brFound "long_term_pic_num".toList (modItem m) = none := by
      rw [modItem, br_struct, hne]
      iterate 2 refine bskip_cons bskip_nat ?_
      refine bskip_cons (by bskip_items) ?_
      refine bskip_cons (by bskip_items) ?_
      refine bskip_cons ?_ bskip_nil
      unfold Shown.opt
      rw [if_neg (by simp)]
      rfl
    rw [h1, hne, Option.none_or]
    refine Eq.subst (motive := fun o => ∃ c, asInts o = .ok ([] ++ c)) (Eq.symm (brIn_step
      (bskip_opt (bskip_cons (bskip_part (weights_br (by simp only [or_true]) _ _)) bskip_nil)))) ?_
    rw [List.flatten_cons, List.flatten_nil, List.append_nil]
    unfold Shown.opt
    split
    · cases h.dec_ref_pic_marking with
      | none => exact ⟨[], rfl⟩
      | some d =>
        rw [List.flatten_cons, List.flatten_nil, List.append_nil, part, brIn_one, markingItem, br_struct]
        refine Eq.subst (motive := fun o => ∃ c, asInts o = .ok ([] ++ c)) (Eq.symm (brIn_step (by bskip_items))) ?_
        rw [List.flatten_cons, List.flatten_nil, List.append_nil]
        generalize (if x.nal_unit_header.nal_unit_type = 5 then 1 else 0) = idr
        unfold Shown.opt
        split
        · refine Eq.subst (motive := fun o => ∃ c, asInts o = .ok ([] ++ c)) (Eq.symm (brIn_step bskip_nat)) ?_
          rw [List.flatten_cons, List.flatten_nil, List.append_nil]
          split
          · obtain ⟨g, h1, h2⟩ := asInts_nats (key := "long_term_pic_num".toList) (name := "long_term_pic_num") (by decide +kernel) d.long_term_pic_num
            refine Eq.subst (motive := fun o => ∃ c, asInts o = .ok ([] ++ c)) (Eq.symm (brIn_step (bskip_nats (by decide +kernel)))) ?_
            refine Eq.subst (motive := fun o => ∃ c, asInts o = .ok ([] ++ c)) (Eq.symm (brIn_step (bskip_nats (by decide +kernel)))) ?_
            rw [brIn_first h1]
            exact ⟨_, h2⟩
          · exact ⟨[], rfl⟩
        · exact ⟨[], rfl⟩
    · exact ⟨[], rfl⟩
  · obtain ⟨g, h1, h2⟩ := asInts_nats (key := "long_term_pic_num".toList) (name := "long_term_pic_num") (by decide +kernel) m.long_term_pic_num
    have h3 : brFound "long_term_pic_num".toList (modItem m) = some g := by
      rw [modItem, br_struct]
      iterate 2 refine Eq.trans (brIn_step bskip_nat) ?_
      iterate 2 refine Eq.trans (brIn_step (by bskip_items)) ?_
      refine brIn_first ?_
      rw [Shown.opt, if_pos hne]
      exact brIn_first h1
    rw [h3]
    exact ⟨[], by rw [List.append_nil]; exact h2⟩

end

/-! ### Frames -/

/-- The frame the script reads for a picture. -/
structure Reads (f : Frame) (x : Spec.Picture) : Prop where
  idr : f.isIdr = x.idr
  ref : f.nal_ref_idc = x.nal_ref_idc
  type : f.slice_type = x.slice_type
  frame_num : f.frame_num = x.frame_num
  active : f.num_ref_idx_l0_active = x.active
  long_term : f.long_term_reference_flag ≠ 0 ↔ x.long_term = true
  operations : match x.operations with
    | none => f.mmco = []
    | some ops => (∀ o ∈ ops, o.Ok) ∧ f.mmco = ops.map (·.memory_management_control_operation) ++ [0] ∧
      f.diff_pic_nums = (ops.filter (fun o => decide (o.memory_management_control_operation = 1 ∨
        o.memory_management_control_operation = 3))).map (·.difference_of_pic_nums_minus1) ∧
      f.long_term_frame_idx = (ops.filter (fun o => decide (o.memory_management_control_operation = 3 ∨
        o.memory_management_control_operation = 6))).map (·.long_term_frame_idx) ∧
      f.max_long_term_frame_idx_plus1 = (ops.filter (fun o => decide (o.memory_management_control_operation = 4))).map
        (·.max_long_term_frame_idx_plus1)
  changes : match x.changes with
    | none => f.rplm_l0 = 0
    | some ops => f.rplm_l0 ≠ 0 ∧ (∀ o ∈ ops, o.1 ≤ 2) ∧ ∃ a b c, f.rplm_mod_idc = ops.map (·.1) ++ 3 :: a ∧
      f.rplm_abs_diff = (ops.filter (fun o => decide (o.1 ≤ 1))).map (·.2) ++ b ∧
      f.rplm_lt_pic_num = (ops.filter (fun o => decide (o.1 = 2))).map (·.2) ++ c

section
variable {σ : Store} {x : NalUnit} {s : SpsData} {p : Pps} {h : SliceHeader}

theorem Sliced.read (H : Sliced σ x s p h) (q : Option Pps) :
    ∃ f, readFrame (q.map (·.num_ref_idx_l0_default_active_minus1)) x.nal_unit_header.nal_unit_type (unitBody (items σ x)) = .ok f ∧
      Reads f (Spec.pictureOf q x.nal_unit_header h) := by
  obtain ⟨m, hm, mok⟩ := H.ok.range.modification
  have hmm : ∃ r, readMmco (unitBody (items σ x)) = .ok r ∧ match (Spec.pictureOf q x.nal_unit_header h).operations with
      | none => r.1 = []
      | some ops => (∀ o ∈ ops, o.Ok) ∧ r.1 = ops.map (·.memory_management_control_operation) ++ [0] ∧
        r.2.1 = (ops.filter (fun o => decide (o.memory_management_control_operation = 1 ∨
          o.memory_management_control_operation = 3))).map (·.difference_of_pic_nums_minus1) ∧
        r.2.2.1 = (ops.filter (fun o => decide (o.memory_management_control_operation = 3 ∨
          o.memory_management_control_operation = 6))).map (·.long_term_frame_idx) ∧
        r.2.2.2 = (ops.filter (fun o => decide (o.memory_management_control_operation = 4))).map
          (·.max_long_term_frame_idx_plus1) := by
    by_cases ha : ∃ d, h.dec_ref_pic_marking = some d ∧ d.adaptive_ref_pic_marking_mode_flag = 1
    · obtain ⟨d, hd, ha'⟩ := ha
      have hr : x.nal_unit_header.nal_ref_idc ≠ 0 := by
        intro hr
        rw [nonref_none H hr] at hd
        cases hd
      obtain ⟨d2, hd2, ok⟩ := ref_some H hr
      rw [hd] at hd2
      cases hd2
      have hops := ok.ops
      rw [if_pos ha'] at hops
      unfold readMmco Spec.pictureOf
      dsimp only
      rw [hd]
      dsimp only
      rw [if_pos (H.adaptive.mpr ⟨d, hd, ha'⟩), if_pos ha']
      obtain ⟨g1, p1, q1⟩ := asInts_nats (key := "memory_management_control_operation".toList) (name := "memory_management_control_operation") (by decide +kernel) d.memory_management_control_operation
      obtain ⟨g2, p2, q2⟩ := asInts_nats (key := "difference_of_pic_nums_minus1".toList) (name := "difference_of_pic_nums_minus1") (by decide +kernel) d.difference_of_pic_nums_minus1
      obtain ⟨g3, p3, q3⟩ := asInts_nats (key := "long_term_frame_idx".toList) (name := "long_term_frame_idx") (by decide +kernel) d.long_term_frame_idx
      obtain ⟨g4, p4, q4⟩ := asInts_nats (key := "max_long_term_frame_idx_plus1".toList) (name := "max_long_term_frame_idx_plus1") (by decide +kernel) d.max_long_term_frame_idx_plus1
      rw [H.ops_list hd ha' (.inl rfl) ⟨by decide, by decide⟩ ⟨g1, brIn_first p1, q1⟩,
        H.ops_list hd ha' (.inr (.inl rfl)) ⟨by decide, by decide⟩ ⟨g2, by
          refine Eq.trans (brIn_step (bskip_nats (by decide +kernel))) ?_
          exact brIn_first p2, q2⟩,
        H.ops_list hd ha' (.inr (.inr (.inl rfl))) ⟨by decide, by decide⟩ ⟨g3, by
          iterate 3 refine Eq.trans (brIn_step (bskip_nats (by decide +kernel))) ?_
          exact brIn_first p3, q3⟩,
        H.ops_list hd ha' (.inr (.inr (.inr rfl))) ⟨by decide, by decide⟩ ⟨g4, by
          iterate 4 refine Eq.trans (brIn_step (bskip_nats (by decide +kernel))) ?_
          exact brIn_first p4, q4⟩]
      refine ⟨_, rfl, hops, ?_, rfl, rfl, rfl⟩
      show d.memory_management_control_operation = _
      unfold DecRefPicMarking.memory_management_control_operation
      rw [if_pos (by omega)]
    · have e : (Spec.pictureOf q x.nal_unit_header h).operations = none := by
        unfold Spec.pictureOf
        dsimp only
        cases hd : h.dec_ref_pic_marking with
        | none => rfl
        | some d =>
          dsimp only
          rw [if_neg fun h' => ha ⟨d, hd, h'⟩]
      rw [e]
      unfold readMmco
      rw [if_neg fun h' => ha (H.adaptive.mp h')]
      exact ⟨_, rfl, rfl⟩
  obtain ⟨⟨a, b, c, d⟩, hr, ho⟩ := hmm
  have hf := H.l0_flag hm
  have hl0 := mok.l0
  have hrp : ∃ r, readRplm (unitBody (items σ x)) = .ok r ∧ match (Spec.pictureOf q x.nal_unit_header h).changes with
      | none => m.ref_pic_list_modification_flag_l0 = 0
      | some ops => m.ref_pic_list_modification_flag_l0 ≠ 0 ∧ (∀ o ∈ ops, o.1 ≤ 2) ∧ ∃ a b c, r.1 = ops.map (·.1) ++ 3 :: a ∧
        r.2.1 = (ops.filter (fun o => decide (o.1 ≤ 1))).map (·.2) ++ b ∧
        r.2.2 = (ops.filter (fun o => decide (o.1 = 2))).map (·.2) ++ c := by
    unfold readRplm Spec.pictureOf
    dsimp only
    rw [hm, hf, Option.getD_some]
    dsimp only
    by_cases h1 : m.ref_pic_list_modification_flag_l0 = 1
    · obtain ⟨e, he⟩ := H.mod_long hm
      rw [if_pos (by omega), if_pos h1, H.mod_idc hm h1, H.mod_diff hm, he]
      refine ⟨_, rfl, by omega, ?_, ?_⟩
      · split at hl0
        · have := hl0.2
          rw [if_pos h1] at this
          exact fun o ho => (this o ho).1
        · omega
      · refine ⟨(if m.ref_pic_list_modification_flag_l1 ≠ 0 then m.ops_l1.map (·.1) ++ [3] else []), (m.ops_l1.filter (fun o => decide (o.1 ≤ 1))).map (·.2), (m.ops_l1.filter (fun o => decide (o.1 = 2))).map (·.2) ++ e, ?_, ?_, ?_⟩
        · show m.modification_of_pic_nums_idc = _
          unfold RefPicListMod.modification_of_pic_nums_idc
          rw [if_pos (by omega), List.append_assoc]
          rfl
        · show m.abs_diff_pic_num_minus1 = _
          unfold RefPicListMod.abs_diff_pic_num_minus1
          rw [List.filter_append, List.map_append]
        · show m.long_term_pic_num ++ e = _
          unfold RefPicListMod.long_term_pic_num
          rw [List.filter_append, List.map_append, List.append_assoc]
    · have h0 : m.ref_pic_list_modification_flag_l0 = 0 := by
        split at hl0
        · have := hl0.1; omega
        · exact hl0.1
      rw [if_neg (by omega), if_neg h1]
      exact ⟨_, rfl, h0⟩
  obtain ⟨⟨a', b', c'⟩, hr', ho'⟩ := hrp
  have hs : need "slice_type" (unitBody (items σ x)) = .ok h.slice_type := by rw [need, H.slice_type]
  have hfn : need "frame_num" (unitBody (items σ x)) = .ok h.frame_num := by rw [need, H.frame_num]
  have hri : need "nal_ref_idc" (unitBody (items σ x)) = .ok x.nal_unit_header.nal_ref_idc := by rw [need, read_ref]
  unfold readFrame
  rw [hs, hfn, hri, H.active q, hr, hr', hf]
  refine ⟨_, rfl, ?_⟩
  refine ⟨?_, rfl, rfl, rfl, rfl, ?_, ho, ho'⟩
  · show (x.nal_unit_header.nal_unit_type == 5) = decide (x.nal_unit_header.nal_unit_type = 5)
    rfl
  · show (if x.nal_unit_header.nal_unit_type = 5 then _ else 0) ≠ 0 ↔ _
    by_cases ht : x.nal_unit_header.nal_unit_type = 5
    · rw [if_pos ht, H.long_flag ht]
      unfold Spec.pictureOf
      dsimp only
      cases hd : h.dec_ref_pic_marking with
      | none => simp
      | some d =>
        have hrr : x.nal_unit_header.nal_ref_idc ≠ 0 := by
          intro hr
          rw [nonref_none H hr] at hd
          cases hd
        obtain ⟨d2, hd2, ok⟩ := ref_some H hrr
        rw [hd] at hd2
        cases hd2
        have := ok.long_term_reference_flag
        dsimp only
        rw [decide_eq_true_iff]
        omega
    · rw [if_neg ht]
      unfold Spec.pictureOf
      dsimp only
      cases hd : h.dec_ref_pic_marking with
      | none => simp
      | some d =>
        have hrr : x.nal_unit_header.nal_ref_idc ≠ 0 := by
          intro hr
          rw [nonref_none H hr] at hd
          cases hd
        obtain ⟨d2, hd2, ok⟩ := ref_some H hrr
        rw [hd] at hd2
        cases hd2
        rw [if_neg ht] at ok
        have := (ok.nonIdr rfl).2
        dsimp only
        rw [decide_eq_true_iff]
        omega

end

/-! ### Streams -/

/-- What is known of the NAL units of a stream. -/
inductive Known : Store → List NalUnit → Prop
  | nil (σ : Store) : Known σ []
  | cons {σ : Store} {n : NalUnit} {ns : List NalUnit} :
      (n.nal_unit_header.nal_unit_type = 1 ∨ n.nal_unit_header.nal_unit_type = 5 → ∃ s p h, Sliced σ n s p h) →
      (n.nal_unit_header.nal_unit_type = 7 → ∃ s, n.nal_unit_payload.sps = some s) →
      (n.nal_unit_header.nal_unit_type = 8 → ∃ p, n.nal_unit_payload.pps = some p) →
      Known (stored σ n.nal_unit_payload) ns → Known σ (n :: ns)

/-- The texts of the NAL units. -/
def bodies : Store → List NalUnit → List (List Item)
  | _, [] => []
  | σ, n :: ns => items σ n :: bodies (stored σ n.nal_unit_payload) ns

theorem items_bodies (bytes : NalUnit → List UInt8) : ∀ (σ : Store) (ns : List NalUnit),
    nalUnitItems (toolOptions dpbArgs) bytes σ ns = (bodies σ ns).map (.group "nal_unit")
  | _, [] => rfl
  | σ, n :: ns => by rw [nalUnitItems, bodies, List.map_cons, nalUnitItem_items, items_bodies bytes _ ns]

theorem bodies_goods : ∀ (σ : Store) (ns : List NalUnit), ∀ is ∈ bodies σ ns, Goods is
  | _, [], is, h => by simp [bodies] at h
  | σ, n :: ns, is, h => by
    rw [bodies] at h
    rcases List.mem_cons.mp h with rfl | h
    · exact items_goods σ n
    · exact bodies_goods _ ns is h

theorem lastSps_cons (n : NalUnit) (ns : List NalUnit) (a : Option SpsData) :
    (Spec.lastSps (n :: ns) <|> a) = (Spec.lastSps ns <|> (Spec.heldSps n <|> a)) := by
  unfold Spec.lastSps
  cases h : Spec.heldSps n with
  | none => rw [List.filterMap_cons, h]; rfl
  | some s =>
    rw [List.filterMap_cons, h]
    dsimp only
    cases h2 : ns.filterMap Spec.heldSps with
    | nil => rfl
    | cons b l => rw [List.getLast?_cons_cons]; cases h3 : (b :: l).getLast? with
      | none => simp at h3
      | some c => rfl

theorem read_stream {σ : Store} {ns : List NalUnit} (h : Known σ ns) : ∀ (a : Option SpsData) (q : Option Pps),
    ∃ fs, readNals (a.map spsOf) (q.map (·.num_ref_idx_l0_default_active_minus1)) ((bodies σ ns).map unitBody) =
        .ok ((Spec.lastSps ns <|> a).map spsOf, fs) ∧
      List.Forall₂ Reads fs (Spec.pictures q ns) := by
  induction h with
  | nil σ =>
    intro a q
    exact ⟨[], rfl, .nil⟩
  | @cons σ n ns h1 h7 h8 _ ih =>
    intro a q
    rw [bodies, List.map_cons, readNals, read_nal_type, lastSps_cons]
    dsimp only
    by_cases c7 : n.nal_unit_header.nal_unit_type = 7
    · obtain ⟨s, hs⟩ := h7 c7
      obtain ⟨fs, e, hf⟩ := ih (some s) q
      rw [if_pos c7, read_sps σ c7 hs]
      refine ⟨fs, ?_, ?_⟩
      · show readNals (some (spsOf s)) _ _ = _
        rw [show (some (spsOf s)) = (some s).map spsOf from rfl, e]
        unfold Spec.heldSps
        rw [if_pos c7, hs]
        rfl
      · unfold Spec.pictures Spec.firstSlice Spec.heldPps
        rw [if_neg (by omega), if_neg (by omega)]
        exact hf
    rw [if_neg c7]
    have e7 : Spec.heldSps n = none := by unfold Spec.heldSps; rw [if_neg c7]
    rw [e7]
    by_cases c8 : n.nal_unit_header.nal_unit_type = 8
    · obtain ⟨p, hp⟩ := h8 c8
      obtain ⟨fs, e, hf⟩ := ih a (some p)
      rw [if_pos c8, read_pps σ c8 hp]
      refine ⟨fs, e, ?_⟩
      unfold Spec.pictures Spec.firstSlice Spec.heldPps
      rw [if_neg (by omega), if_pos c8, hp]
      exact hf
    rw [if_neg c8]
    have e8 : Spec.heldPps n = none := by unfold Spec.heldPps; rw [if_neg c8]
    obtain ⟨fs, e, hf⟩ := ih a q
    by_cases c1 : n.nal_unit_header.nal_unit_type = 1 ∨ n.nal_unit_header.nal_unit_type = 5
    · obtain ⟨s, p, h, H⟩ := h1 c1
      have hfs : Spec.firstSlice n = if h.first_mb_in_slice = 0 then some h else none := by
        obtain ⟨y, hy, hh⟩ := H.layer
        unfold Spec.firstSlice
        rw [if_pos c1, hy]
        dsimp only
        rw [hh]
      rw [if_neg (by omega), H.first_mb]
      by_cases c0 : h.first_mb_in_slice = 0
      · rw [if_neg (by simp [c0])]
        obtain ⟨f, hf1, hf2⟩ := H.read q
        rw [hf1]
        refine ⟨f :: fs, ?_, ?_⟩
        · show (do let r ← readNals (a.map spsOf) (q.map (·.num_ref_idx_l0_default_active_minus1)) _; pure (r.1, f :: r.2) : Except Err _) = _
          rw [e]
          rfl
        · unfold Spec.pictures
          rw [hfs, if_pos c0, e8]
          exact .cons hf2 hf
      · rw [if_pos (by simp [c0])]
        refine ⟨fs, e, ?_⟩
        unfold Spec.pictures
        rw [hfs, if_neg c0, e8]
        exact hf
    · rw [if_pos (by omega)]
      refine ⟨fs, e, ?_⟩
      unfold Spec.pictures Spec.firstSlice
      rw [if_neg c1, e8]
      exact hf

theorem parse_frames {ns : List NalUnit} (h : Known {} ns) (bytes : NalUnit → List UInt8) :
    ∃ fs, parseFrames (unitsText (toolOptions dpbArgs) bytes 0 {} ns) = .ok ((Spec.lastSps ns).map spsOf, fs) ∧
      List.Forall₂ Reads fs (Spec.pictures none ns) := by
  obtain ⟨fs, e, hf⟩ := read_stream h none none
  refine ⟨fs, ?_, hf⟩
  unfold parseFrames unitsText
  rw [items_bodies, List.flatMap_map, split_units _ (bodies_goods {} ns)]
  rw [show (Spec.lastSps ns <|> none) = Spec.lastSps ns by cases Spec.lastSps ns <;> rfl] at e
  exact e

end H264.Dpb
