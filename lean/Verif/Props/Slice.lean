import Verif.Codecs.Slice
import Verif.Props.RefPic
import Verif.Props.Sps

/-
Property C34: the slice header.
-/

namespace H264.Props
open H264

/-- C34: `ParseSliceHeader` returns `h` iff the store has the PPS `h` names and the SPS that PPS names, the next bits are
the 7.3.3 encoding of `h` under these two, and `h` is in range; it has then consumed exactly that encoding. -/
theorem C34_sliceHeader_exact (nd : Bool) {b : Buf} (hb : b.WF) (c : Nat) {σ : Store} (hσ : σ.InRange) (ref type : Nat)
    (h : SliceHeader) (s' : St) :
    run nd (parseSliceHeader σ ref type) ⟨b, c⟩ = .ok h s' ↔
      ∃ p s, σ.pps h.pic_parameter_set_id = some p ∧ σ.sps p.seq_parameter_set_id = some s ∧ h.Ok ref type s p ∧
        (∃ r, b.rem = encSliceHeader s p h ++ r) ∧ s' = ⟨b.adv (encSliceHeader s p h).length, c⟩ := by
  rw [(codec_sliceHeader hσ ref type).run nd hb c h s']
  have he : ∀ p s, σ.pps h.pic_parameter_set_id = some p → σ.sps p.seq_parameter_set_id = some s →
      encSlice σ h = encSliceHeader s p h := by
    intro p s hp hs
    unfold encSlice
    rw [hp]; dsimp only; rw [hs]
  constructor
  · rintro ⟨⟨p, s, hp, hs, ok⟩, hr, hs'⟩
    rw [he p s hp hs] at hr hs'
    exact ⟨p, s, hp, hs, ok, hr, hs'⟩
  · rintro ⟨p, s, hp, hs, ok, hr, hs'⟩
    rw [← he p s hp hs] at hr hs'
    exact ⟨⟨p, s, hp, hs, ok⟩, hr, hs'⟩

/-- C34: undefined behaviour never happens. -/
theorem C34_sliceHeader_safe (nd : Bool) {b : Buf} (hb : b.WF) (c : Nat) {σ : Store} (hσ : σ.InRange) (ref type : Nat)
    (e : Bad) : run nd (parseSliceHeader σ ref type) ⟨b, c⟩ ≠ .bad e :=
  (safe_sliceHeader hσ ref type).run nd hb c e

/-- C34: if the PPS named by the slice, or the SPS named by that PPS, is missing, the result is null. -/
theorem C34_missing_parameter_set (nd : Bool) {b : Buf} (hb : b.WF) (c : Nat) (σ : Store) (ref type : Nat)
    {first_mb slice_type pps_id : Nat} {r : List Bool} (h1 : first_mb ≤ 139263) (h2 : slice_type ≤ 9) (h3 : pps_id ≤ 255)
    (hr : b.rem = encUE first_mb ++ encUE slice_type ++ encUE pps_id ++ r)
    (hm : ∀ p, σ.pps pps_id = some p → σ.sps p.seq_parameter_set_id = none) :
    ∃ s', run nd (parseSliceHeader σ ref type) ⟨b, c⟩ = .null s' := by
  rw [run_eq nd _ hb c]
  have e : runL nd parseSliceStart ⟨b.rem, c⟩ = .ok (first_mb, slice_type, pps_id) ⟨r, c⟩ :=
    (codec_sliceStart nd _ c _ _).mpr ⟨⟨h1, h2, h3⟩, r, hr, rfl⟩
  have : ∃ s', runL nd (parseSliceHeader σ ref type) ⟨b.rem, c⟩ = .null s' := by
    unfold parseSliceHeader
    rw [runL_bind, e]
    dsimp only [Out.bind]
    split
    · exact ⟨_, rfl⟩
    · rename_i p hp
      rw [hm p hp]
      exact ⟨_, rfl⟩
  obtain ⟨s', hs'⟩ := this
  rw [hs']
  exact ⟨_, rfl⟩

/-- C34: the header does not depend on the slice data: any input agreeing on the bits that were consumed gives the same
header. -/
theorem C34_ignores_slice_data (nd : Bool) {b : Buf} (hb : b.WF) (c : Nat) {σ : Store} (hσ : σ.InRange) (ref type : Nat)
    {h : SliceHeader} {s' : St} (hp : run nd (parseSliceHeader σ ref type) ⟨b, c⟩ = .ok h s') :
    ∃ n, s' = ⟨b.adv n, c⟩ ∧ n ≤ b.rem.length ∧
      ∀ (b2 : Buf) (c2 : Nat), b2.WF → b2.rem.take n = b.rem.take n →
        run nd (parseSliceHeader σ ref type) ⟨b2, c2⟩ = .ok h ⟨b2.adv n, c2⟩ := by
  obtain ⟨p, s, e1, e2, ok, ⟨r, hr⟩, hs⟩ := (C34_sliceHeader_exact nd hb c hσ ref type h s').mp hp
  refine ⟨_, hs, by rw [hr, List.length_append]; omega, ?_⟩
  intro b2 c2 hb2 ht
  refine (C34_sliceHeader_exact nd hb2 c2 hσ ref type h _).mpr ⟨p, s, e1, e2, ok, ⟨b2.rem.drop (encSliceHeader s p h).length, ?_⟩, rfl⟩
  rw [hr, List.take_left] at ht
  have := List.take_append_drop (encSliceHeader s p h).length b2.rem
  rw [ht] at this
  exact this.symm

/-- C34: slice headers of NAL unit types 20 and 21 (whose MVC list modification is not implemented) are never
returned. -/
theorem C34_mvc_refused (nd : Bool) {b : Buf} (hb : b.WF) (c : Nat) {σ : Store} (hσ : σ.InRange) (ref : Nat) {type : Nat}
    (ht : type = 20 ∨ type = 21) (h : SliceHeader) (s' : St) :
    run nd (parseSliceHeader σ ref type) ⟨b, c⟩ ≠ .ok h s' := by
  intro hp
  obtain ⟨_, _, _, _, ok, _⟩ := (C34_sliceHeader_exact nd hb c hσ ref type h s').mp hp
  have := ok.type
  omega

/-- C34: the width of slice_group_change_cycle used in the specification is Ceil(Log2(P ÷ R + 1)): it is the least `k`
with P / R + 1 ≤ 2^k. -/
theorem C34_change_cycle_bits {P R : Nat} (hP : 0 < P) (hR : 0 < R) (k : Nat) :
    P + R ≤ R * 2 ^ k ↔ changeCycleBits P R ≤ k :=
  changeCycleBits_spec hP hR k

example : changeCycleBits 8160 100 = 7 ∧ changeCycleBits 8160 8160 = 1 ∧ changeCycleBits 8160 8161 = 1 ∧
    changeCycleBits 7 1 = 3 ∧ changeCycleBits 8 1 = 4 := by decide +kernel

/-- C34: the answer does not depend on the build mode. -/
theorem C34_mode_independent (σ : Store) (ref type : Nat) : ModeIndep (parseSliceHeader σ ref type) :=
  mode_sliceHeader σ ref type

/-! ### A concrete B slice -/

instance (v : Int) : Decidable (seRange v) := inferInstanceAs (Decidable (_ ∧ _))
instance (v : Nat) : Decidable (ueRange v) := inferInstanceAs (Decidable (_ < _))

/-- SPS 3 of the example. -/
def exSliceSps : SpsData := { exSps.state with toSpsTail := { exSps.tail with
  pic_order_cnt_type := 0, log2_max_pic_order_cnt_lsb_minus4 := 2, offset_for_non_ref_pic := 0,
  num_ref_frames_in_pic_order_cnt_cycle := 0, offset_for_ref_frame := [] } }
/-- PPS 9 of the example: two evolving slice groups, explicit weights, CABAC. -/
def exSlicePps : Pps :=
  { pic_parameter_set_id := 9, seq_parameter_set_id := 3, entropy_coding_mode_flag := 1,
    bottom_field_pic_order_in_frame_present_flag := 1, num_slice_groups_minus1 := 1, slice_group_map_type := 3,
    slice_group_change_rate_minus1 := 99, num_ref_idx_l0_default_active_minus1 := 1, weighted_bipred_idc := 1,
    deblocking_filter_control_present_flag := 1 }
/-- The store of the example. -/
def exStore : Store := { sps := upd (fun _ => none) 3 exSliceSps, pps := upd (fun _ => none) 9 exSlicePps }
/-- The slice header of the example. -/
def exSlice : SliceHeader :=
  { nal_ref_idc := 2, nal_unit_type := 1, log2_max_frame_num_minus4 := 4, frame_mbs_only_flag := 1,
    bottom_field_pic_order_in_frame_present_flag := 1, weighted_bipred_idc := 1, entropy_coding_mode_flag := 1,
    deblocking_filter_control_present_flag := 1, num_slice_groups_minus1 := 1, slice_group_map_type := 3,
    pic_width_in_mbs_minus1 := 119, pic_height_in_map_units_minus1 := 67, slice_group_change_rate_minus1 := 99,
    first_mb_in_slice := 17, slice_type := 1, pic_parameter_set_id := 9, frame_num := 200, pic_order_cnt_lsb := 33,
    delta_pic_order_cnt_bottom := -1, direct_spatial_mv_pred_flag := 1, num_ref_idx_l0_active_minus1 := 1,
    ref_pic_list_modification := some { exMod with slice_type := 1 }, pred_weight_table := some exTable,
    dec_ref_pic_marking := some exMarking, cabac_init_idc := 2, slice_qp_delta := -51,
    disable_deblocking_filter_idc := 2, slice_alpha_c0_offset_div2 := 6, slice_beta_offset_div2 := -6,
    slice_group_change_cycle := 82 }

theorem exStore_inRange : exStore.InRange := by
  constructor
  · intro k s h
    unfold exStore upd at h
    dsimp only at h
    split at h
    · cases h
      refine ⟨exSps_ok.head, ?_⟩
      have := exSps_ok.tail
      constructor <;> first
        | decide +kernel
        | exact this.vui
    · cases h
  · intro k p h
    unfold exStore upd at h
    dsimp only at h
    split at h
    · cases h
      constructor <;> first
        | decide +kernel
        | (constructor <;> decide +kernel)
    · cases h

theorem exSlice_ok : exSlice.Ok 2 1 exSliceSps exSlicePps := by
  refine ⟨by constructor <;> decide +kernel, ?_, by decide⟩
  constructor <;> first
    | decide +kernel
    | exact ⟨_, rfl, exTable_ok⟩
    | exact ⟨_, rfl, exMarking_ok⟩
    | exact ⟨_, rfl, by constructor <;> first | decide +kernel | exact ⟨by decide, by decide +kernel⟩⟩

example (nd : Bool) (r : List Bool) : runL nd (parseSliceHeader exStore 2 1)
    ⟨encSliceHeader exSliceSps exSlicePps exSlice ++ r, 0⟩ = .ok exSlice ⟨r, 0⟩ :=
  (codec_sliceHeader exStore_inRange 2 1).parse_append nd ⟨_, _, rfl, rfl, exSlice_ok⟩ r 0

end H264.Props
