import Verif.Codecs.Sps
import Verif.Props.Headers

/-
Properties C20, C21 and C26-C29: the end of an RBSP, sequence parameter sets, scaling lists.
-/

namespace H264.Props
open H264

/-! ### C20 -/

theorem moreData_false (l : List Bool) : moreData l = false ↔ l = [] ∨ ∃ k, k ≤ 7 ∧ l = trailingBits k := by
  unfold moreData trailingBits
  rw [Bool.and_eq_false_iff, Bool.or_eq_false_iff]
  simp only [decide_eq_false_iff_not, ne_eq, Decidable.not_not, Bool.not_eq_false', decide_eq_true_eq, Nat.not_lt]
  constructor
  · rintro (h | ⟨h1, h2⟩)
    · exact Or.inl h
    · exact Or.inr ⟨l.length - 1, by omega, h2⟩
  · rintro (h | ⟨k, h1, h2⟩)
    · exact Or.inl h
    · refine Or.inr ?_
      rw [h2]
      simp; omega

/-- C20: `more_rbsp_data` never moves the position, and is false exactly at the end of the data or when what is left
is rbsp_trailing_bits() within one byte. -/
theorem C20_more_rbsp_data_exact (nd : Bool) {b : Buf} (hb : b.WF) (c : Nat) :
    ∃ v, run nd moreRbspData ⟨b, c⟩ = .ok v ⟨b, c⟩ ∧
      (v = false ↔ b.rem = [] ∨ ∃ k, k ≤ 7 ∧ b.rem = trailingBits k) := by
  refine ⟨moreData b.rem, ?_, moreData_false _⟩
  rw [run_eq nd _ hb c, runL_more]
  simp [Out.mapSt, toSt, hb]

theorem trailingBits_unique {p q : List Bool} {j k : Nat} (h : p ++ trailingBits j = q ++ trailingBits k) :
    p = q ∧ j = k := by
  have h1 := congrArg List.reverse h
  unfold trailingBits at h1
  simp only [List.reverse_append, List.reverse_cons, List.reverse_replicate, List.append_assoc] at h1
  clear h
  induction j generalizing k with
  | zero =>
    cases k with
    | zero => simp at h1; exact ⟨h1, rfl⟩
    | succ k => simp [List.replicate_succ] at h1
  | succ j ih =>
    cases k with
    | zero => simp [List.replicate_succ] at h1
    | succ k =>
      simp only [List.replicate_succ, List.cons_append, List.cons.injEq, true_and] at h1
      obtain ⟨h2, h3⟩ := ih h1
      exact ⟨h2, by omega⟩

/-- C20, partial: `more_rbsp_data` agrees with the standard when the RBSP ends with its trailing bits, that is when
at most seven zero bits follow the last one bit.  Missing: RBSPs followed by zero bytes, where it is wrong (see
`C20_zero_bytes_wrong`). -/
theorem C20_more_rbsp_data_partial (nd : Bool) {b : Buf} (hb : b.WF) (c : Nat) {pre : List Bool} {k : Nat}
    (hk : k ≤ 7) (h : b.rem = pre ++ trailingBits k) :
    ∃ v, run nd moreRbspData ⟨b, c⟩ = .ok v ⟨b, c⟩ ∧ (v = true ↔ MoreRbspData b.rem) := by
  obtain ⟨v, h1, h2⟩ := C20_more_rbsp_data_exact nd hb c
  refine ⟨v, h1, ?_⟩
  have h3 : v = true ↔ ¬ (b.rem = [] ∨ ∃ k, k ≤ 7 ∧ b.rem = trailingBits k) := by
    rw [← h2]; cases v <;> simp
  rw [h3]
  constructor
  · intro h4
    refine ⟨pre, k, h, ?_⟩
    rintro rfl
    exact h4 (Or.inr ⟨k, hk, by simpa using h⟩)
  · rintro ⟨q, j, h5, h6⟩ (h7 | ⟨m, _, h7⟩)
    · rw [h5] at h7; simp [trailingBits] at h7
    · have : q ++ trailingBits j = [] ++ trailingBits m := by rw [← h5, h7]; rfl
      exact h6 (trailingBits_unique this).1

/-- C20 fails with one zero byte after the trailing bits: nothing is left, yet the answer is true. -/
theorem C20_zero_bytes_wrong (nd : Bool) :
    run nd moreRbspData ⟨{ bytes := [0x80, 0x00], byteOff := 0, bitOff := 0 }, 0⟩ =
      .ok true ⟨{ bytes := [0x80, 0x00], byteOff := 0, bitOff := 0 }, 0⟩ ∧
    ¬ MoreRbspData (allBits [0x80, 0x00]) := by
  constructor
  · cases nd <;> decide +kernel
  · rintro ⟨q, j, h5, h6⟩
    have h8 : allBits [0x80, 0x00] = [] ++ trailingBits 15 := by decide +kernel
    exact h6 (trailingBits_unique (h5.symm.trans h8)).1

example : ∃ pre, allBits [0xA5, 0x90] = pre ++ trailingBits 4 ∧ MoreRbspData (allBits [0xA5, 0x90]) :=
  ⟨encU 8 0xA5 ++ encU 3 4, by decide +kernel, encU 8 0xA5 ++ encU 3 4, 4, by decide +kernel, by decide⟩

/-! ### C21 -/

/-- C21: `rbsp_trailing_bits` returns true iff the next bits are a one and zeros up to the next byte boundary; it then
stops at that boundary. -/
theorem C21_trailing_bits_exact (nd : Bool) {b : Buf} (hb : b.WF) (c : Nat) (s' : St) :
    run nd rbspTrailingBits ⟨b, c⟩ = .ok () s' ↔
      ∃ k r, k < 8 ∧ b.rem = trailingBits k ++ r ∧ (b.adv (k + 1)).bitOff = 0 ∧ s' = ⟨b.adv (k + 1), c⟩ := by
  rw [run_ok_iff nd _ hb c]
  have key : ∀ {k r}, b.rem = trailingBits k ++ r → (r.length % 8 = 0 ↔ (b.adv (k + 1)).bitOff = 0) := by
    intro k r h
    have hl : (trailingBits k).length = k + 1 := by simp [trailingBits]
    have hw : (b.adv (k + 1)).WF := hb.adv (by rw [h]; simp [hl])
    rw [← rem_mod8 hw, Buf.rem_adv, h, List.drop_left' hl]
  have hst : ∀ {k r}, b.rem = trailingBits k ++ r → toSt b ⟨r, c⟩ = ⟨b.adv (k + 1), c⟩ := by
    intro k r h
    rw [toSt_append h]; simp [trailingBits]
  constructor
  · rintro ⟨s1, h1, rfl⟩
    obtain ⟨k, r, h2, h3, h4, rfl⟩ := (runL_trailing nd _ c s1).mp h1
    exact ⟨k, r, h3, h2, (key h2).mp h4, hst h2⟩
  · rintro ⟨k, r, h1, h2, h3, rfl⟩
    exact ⟨⟨r, c⟩, (runL_trailing nd _ c _).mpr ⟨k, r, h2, h1, (key h2).mpr h3, rfl⟩, (hst h2).symm⟩

/-- C21: otherwise it returns false. -/
theorem C21_trailing_bits_safe (nd : Bool) {b : Buf} (hb : b.WF) (c : Nat) (e : Bad) :
    run nd rbspTrailingBits ⟨b, c⟩ ≠ .bad e := safe_trailing.run nd hb c e

example : run false rbspTrailingBits ⟨{ bytes := [0xA4, 0xFF], byteOff := 0, bitOff := 5 }, 0⟩ =
    .ok () ⟨{ bytes := [0xA4, 0xFF], byteOff := 1, bitOff := 0 }, 0⟩ := by decide +kernel

/-! ### C29 -/

/-- C29: on the coded form of a scaling list, `scaling_list` returns true and produces the list of clause
7.3.2.1.1.1, whatever the vectors held before (the list vector holding at most `size` entries). -/
theorem C29_scaling_list_complete (nd : Bool) (i size : Nat) (h0 : size ≠ 0) {x : SL}
    (h : ScalingList size 8 8 x.deltas x.list) (s : SLSt) (hs : s.list.length ≤ size) {b : Buf} (hb : b.WF) (c : Nat)
    {r : List Bool} (hr : b.rem = encDeltas x.deltas ++ r) :
    run nd (scalingList i size s) ⟨b, c⟩ =
      .ok (true, ⟨x.list, setEntry s.useDef i x.useDefault, x.lastDelta⟩) ⟨b.adv (encDeltas x.deltas).length, c⟩ := by
  rw [run_ok_iff nd _ hb c]
  refine ⟨⟨r, c⟩, ?_, (toSt_append hr c).symm⟩
  rw [hr]
  exact scalingList_ok nd i size h h0 s hs r c

/-- C29: if `scaling_list` returns true, the bits read code a scaling list; if it returns false, a delta_scale was
missing or out of range.  There is no other outcome: no overflow, no null. -/
theorem C29_scaling_list_sound (nd : Bool) (i size : Nat) (s : SLSt) {b : Buf} (hb : b.WF) (c : Nat) :
    ∃ v s1 s', run nd (scalingList i size s) ⟨b, c⟩ = .ok (v, s1) s' ∧
      (v = true → ∃ x : SL, ScalingList size 8 8 x.deltas x.list ∧ ∃ r, b.rem = encDeltas x.deltas ++ r) ∧
      (v = false → ∃ ds rest, b.rem = encDeltas ds ++ rest ∧ BrokenList size 8 8 ds rest) := by
  rcases scalingList_total nd i size s b.rem c with ⟨x, h1, r, h2⟩ | ⟨ds, rest, h1, h2, s1, r, h3⟩
  · refine ⟨true, slFinal i size 0 8 s x.deltas x.list, toSt b ⟨r, c⟩, ?_, fun _ => ⟨x, h1, r, h2⟩, by simp⟩
    rw [run_ok_iff nd _ hb c]
    refine ⟨_, ?_, rfl⟩
    rw [h2]
    exact scalingLoop_ok nd i h1 0 s r c (by omega) (by omega)
  · refine ⟨false, s1, toSt b ⟨r, c⟩, ?_, by simp, fun _ => ⟨ds, rest, h1, h2⟩⟩
    rw [run_ok_iff nd _ hb c]
    exact ⟨_, h3, rfl⟩

theorem ScalingList_entries {n last next : Nat} {ds : List Int} {out : List Nat} (h : ScalingList n last next ds out)
    (h1 : 1 ≤ last) (h2 : last ≤ 255) : ∀ v ∈ out, 1 ≤ v ∧ v ≤ 255 := by
  induction h with
  | done => simp
  | @read _ _ _ _ _ _ entry _ _ _ _ hn he _ ih =>
    have hb : 1 ≤ entry ∧ entry ≤ 255 := by rw [he]; split <;> omega
    intro v hv
    rcases List.mem_cons.mp hv with rfl | hv
    · exact hb
    · exact ih hb.1 hb.2 v hv
  | keep _ ih =>
    intro v hv
    rcases List.mem_cons.mp hv with rfl | hv
    · exact ⟨h1, h2⟩
    · exact ih h1 h2 v hv

/-- C29: all entries of a scaling list are in 1..255, and there are `size` of them. -/
theorem C29_scaling_list_entries {size : Nat} {x : SL} (h : ScalingList size 8 8 x.deltas x.list) :
    x.list.length = size ∧ ∀ v ∈ x.list, 1 ≤ v ∧ v ≤ 255 :=
  ⟨h.out_length, ScalingList_entries h (by omega) (by omega)⟩

/-- The list 10, 12, 12, 12, ... -/
def exSL : SL := ⟨[2, 2, -12], [10, 12] ++ List.replicate 14 12⟩
theorem exSL_ok (i : Nat) (hi : i < 6) : exSL.Ok i := by
  unfold SL.Ok; rw [if_pos hi]
  refine .read (nextScale := 10) (by omega) (by omega) (by omega) (by decide) rfl ?_
  refine .read (nextScale := 12) (by omega) (by omega) (by omega) (by decide) rfl ?_
  refine .read (nextScale := 0) (by omega) (by omega) (by omega) (by decide) rfl ?_
  iterate 13 refine .keep ?_
  exact .done _ _
/-- The default 8x8 list is to be used. -/
def exSL8 : SL := ⟨[-8], List.replicate 64 8⟩
theorem exSL8_ok (i : Nat) (hi : ¬ i < 6) : exSL8.Ok i := by
  unfold SL.Ok; rw [if_neg hi]
  refine .read (nextScale := 0) (by omega) (by omega) (by omega) (by decide) rfl ?_
  iterate 63 refine .keep ?_
  exact .done _ _

example (nd : Bool) : runL nd (scalingList 3 16 {}) ⟨encDeltas exSL.deltas ++ [true], 0⟩ =
    .ok (true, ⟨exSL.list, [0, 0, 0, 0], -12⟩) ⟨[true], 0⟩ :=
  scalingList_ok nd 3 16 (by have := exSL_ok 0 (by omega); unfold SL.Ok at this; exact this) (by omega) {} (by decide) _ _

/-! ### C26 -/

/-- C26: on the encoding of a well-formed SPS, `ParseSps` returns its head, its tail, and what `keepLists` keeps of
the scaling lists. -/
theorem C26_sps_complete_partial (nd : Bool) {b : Buf} (hb : b.WF) (c : Nat) {x : SpsSyn} (ok : x.Ok) {r : List Bool}
    (h : b.rem = encSps x ++ r) : ∃ s', run nd parseSps ⟨b, c⟩ = .ok x.state s' := by
  have h1 := (sps_iff nd ⟨b.rem, c⟩ x.state).mpr ⟨⟨r, c⟩, by rw [h]; exact spsData_complete nd ok r c⟩
  obtain ⟨s1, h2⟩ := h1
  exact ⟨toSt b s1, (run_ok_iff nd _ hb c _ _).mpr ⟨s1, h2, rfl⟩⟩

/-- C26: conversely, if `ParseSps` returns a value and no scaling list is malformed, the RBSP starts with the encoding
of a well-formed SPS having that state. -/
theorem C26_sps_sound_partial (nd : Bool) {b : Buf} (hb : b.WF) (c : Nat) {st : SpsData} {s' : St}
    (h : run nd parseSps ⟨b, c⟩ = .ok st s') (hm : ¬ MalformedSps b.rem) :
    ∃ x r, x.Ok ∧ st = x.state ∧ b.rem = encSps x ++ r := by
  obtain ⟨s1, h1, _⟩ := (run_ok_iff nd _ hb c _ _).mp h
  obtain ⟨s2, h2⟩ := (sps_iff nd _ _).mp ⟨s1, h1⟩
  rcases spsData_sound nd h2 with ⟨x, r, h3, h4, h5, _⟩ | h3
  · exact ⟨x, r, h3, h4, h5⟩
  · exact absurd h3 hm

/-- C26 without scaling matrix: `ParseSps` returns `st` iff the RBSP starts with the encoding of `st`, all fields
being in range and absent ones at their default. -/
theorem C26_sps_exact_without_lists (nd : Bool) {b : Buf} (hb : b.WF) (c : Nat) (st : SpsData)
    (hf : st.seq_scaling_matrix_present_flag = 0) :
    (∃ s', run nd parseSps ⟨b, c⟩ = .ok st s') ↔
      st.toSpsHead.Ok ∧ st.toSpsTail.Ok st.toSpsHead ∧ st.toScal = {} ∧
      ∃ r, b.rem = encSpsHead st.toSpsHead ++ encSpsTail st.toSpsTail ++ r := by
  have cnt : ∀ h : SpsHead, h.seq_scaling_matrix_present_flag = 0 → spsListCount h = 0 := by
    intro h h0; unfold spsListCount; rw [if_neg (by omega)]
  constructor
  · rintro ⟨s', h⟩
    obtain ⟨s1, h1, _⟩ := (run_ok_iff nd _ hb c _ _).mp h
    obtain ⟨s2, h2⟩ := (sps_iff nd _ _).mp ⟨s1, h1⟩
    rcases spsData_sound nd h2 with ⟨x, r, h3, h4, h5, _⟩ | ⟨hd, rest, h3, h4, ls, ds, rest', h5, _⟩
    · have hx : x.lists = [] := by
        have := h3.count
        rw [cnt x.head (by rw [h4] at hf; exact hf)] at this
        exact List.length_eq_zero_iff.mp this
      rw [h4]
      refine ⟨h3.head, h3.tail, by simp only [SpsSyn.state, hx, keepLists], r, ?_⟩
      rw [h5]; unfold encSps; rw [hx]; simp only [SpsSyn.state, encLists, List.append_nil]
    · -- the head read is the head returned
      exfalso
      unfold parseSpsData at h2
      rw [runL_bind_ok] at h2
      obtain ⟨hd', s3, h6, h2⟩ := h2
      rw [h4, codec_spsHead.parse_append nd h3] at h6
      simp only [Out.ok.injEq] at h6
      obtain ⟨rfl, _⟩ := h6
      rw [runL_bind_ok] at h2
      obtain ⟨_, _, _, h2⟩ := h2
      rw [runL_bind_ok] at h2
      obtain ⟨_, _, _, h2⟩ := h2
      simp only [Prog.pure_eq, runL_ret, Out.ok.injEq] at h2
      rw [← h2.1] at hf
      rw [cnt hd hf] at h5
      omega
  · rintro ⟨h1, h2, h3, r, h4⟩
    have ok : SpsSyn.Ok ⟨st.toSpsHead, [], st.toSpsTail⟩ := ⟨h1, (cnt _ hf).symm, trivial, h2⟩
    obtain ⟨s', h5⟩ := C26_sps_complete_partial nd hb c ok (r := r) (by
      rw [h4]; unfold encSps; simp only [encLists, List.append_nil])
    refine ⟨s', ?_⟩
    rw [h5]
    congr 1
    simp only [SpsSyn.state, keepLists]
    rw [← h3]

/-- C26: `ParseSps` never runs into undefined behaviour. -/
theorem C26_sps_safe (nd : Bool) {b : Buf} (hb : b.WF) (c : Nat) (e : Bad) : run nd parseSps ⟨b, c⟩ ≠ .bad e :=
  safe_sps.run nd hb c e

/-- A High profile SPS, 1920x1088 cropped to 1920x1080, with scaling lists and VUI. -/
def exSps : SpsSyn :=
  { head := { profile_idc := 100, level_idc := 40, seq_parameter_set_id := 3, chroma_format_idc := 1,
              seq_scaling_matrix_present_flag := 1 },
    lists := [none, some exSL, none, none, none, none, some exSL8, none],
    tail := { log2_max_frame_num_minus4 := 4, pic_order_cnt_type := 1, offset_for_non_ref_pic := -3,
              num_ref_frames_in_pic_order_cnt_cycle := 2, offset_for_ref_frame := [5, -7], max_num_ref_frames := 4,
              pic_width_in_mbs_minus1 := 119, pic_height_in_map_units_minus1 := 67, frame_mbs_only_flag := 1,
              direct_8x8_inference_flag := 1, frame_cropping_flag := 1, frame_crop_bottom_offset := 4,
              vui_parameters_present_flag := 1, vui_parameters := some exVui } }

theorem exSps_ok : exSps.Ok := by
  refine ⟨?_, rfl, ?_, ?_⟩
  · constructor <;> decide +kernel
  · exact ⟨exSL_ok 1 (by omega), exSL8_ok 6 (by omega), trivial⟩
  · constructor <;> first
      | decide +kernel
      | exact ⟨exVui, rfl, exVui_ok⟩
      | (refine ⟨by decide, ⟨by decide, by decide⟩, ⟨by decide, by decide⟩, by decide, by decide, ?_⟩
         unfold seRange; decide)

example (nd : Bool) : runL nd parseSpsData ⟨encSps exSps ++ [true], 0⟩ = .ok exSps.state ⟨[true], 0⟩ :=
  spsData_complete nd exSps_ok _ _

/-- C26: the state does not determine the SPS.  Only the last 4x4 list and the last 8x8 list are kept: these two
well-formed SPS differ, and so do their encodings, but `ParseSps` returns the same state for both. -/
theorem C26_lists_lost : ∃ x y : SpsSyn, x.Ok ∧ y.Ok ∧ encSps x ≠ encSps y ∧ x.state = y.state := by
  have flat : SL.Ok 1 ⟨[8, -16], List.replicate 16 16⟩ := by
    refine .read (nextScale := 16) (by omega) (by omega) (by omega) (by decide) rfl ?_
    refine .read (nextScale := 0) (by omega) (by omega) (by omega) (by decide) rfl ?_
    iterate 14 refine .keep ?_
    exact .done _ _
  refine ⟨{ exSps with lists := [none, some exSL, none, none, none, some exSL, none, none] },
    { exSps with lists := [none, some ⟨[8, -16], List.replicate 16 16⟩, none, none, none, some exSL, none, none] },
    ⟨exSps_ok.head, rfl, ⟨exSL_ok 1 (by omega), exSL_ok 5 (by omega), trivial⟩, exSps_ok.tail⟩,
    ⟨exSps_ok.head, rfl, ⟨flat, exSL_ok 5 (by omega), trivial⟩, exSps_ok.tail⟩, ?_, ?_⟩
  · unfold encSps
    intro h
    rw [List.append_assoc, List.append_assoc] at h
    have h' := congrArg (List.take 12) (List.append_cancel_left h)
    revert h'
    decide +kernel
  · simp only [SpsSyn.state]
    congr 1

/-! ### C29: malformed lists -/

theorem encSE_cancel {d e : Int} {r s : List Bool} (hd : -128 ≤ d ∧ d ≤ 127) (he : -128 ≤ e ∧ e ≤ 127)
    (h : encSE d ++ r = encSE e ++ s) : d = e ∧ r = s := by
  have h1 := Codec.se.parse_append false (a := d) ⟨by omega, by omega⟩ r 0
  have h2 := Codec.se.parse_append false (a := e) ⟨by omega, by omega⟩ s 0
  rw [h, h2] at h1
  simp only [Out.ok.injEq, LSt.mk.injEq, and_true] at h1
  exact ⟨h1.1.symm, h1.2.symm⟩

theorem broken_not_list {n last next : Nat} {ds' : List Int} {rest : List Bool} (hb : BrokenList n last next ds' rest) :
    ∀ {ds : List Int} {out : List Nat} {r : List Bool}, ScalingList n last next ds out →
      encDeltas ds ++ r ≠ encDeltas ds' ++ rest := by
  induction hb with
  | here hn hbad =>
    intro ds out r hl he
    cases hl with
    | @read _ _ _ d ds _ _ _ _ h1 h2 _ _ _ =>
      refine hbad d (encDeltas ds ++ r) ?_ ⟨h1, h2⟩
      simpa [encDeltas] using he.symm
    | keep _ => exact hn rfl
  | later hn h1 h2 h3 _ ih =>
    intro ds out r hl he
    cases hl with
    | read _ g1 g2 g3 g4 g5 =>
      simp only [encDeltas, List.flatMap_cons, List.append_assoc] at he
      obtain ⟨rfl, he'⟩ := encSE_cancel ⟨g1, g2⟩ ⟨h1, h2⟩ he
      have := Int.ofNat.inj (g3.trans h3.symm)
      subst this
      subst g4
      exact ih g5 he'
    | keep _ => exact hn rfl

theorem encLists_cons_none (ls : List (Option SL)) : encLists (none :: ls) = false :: encLists ls := rfl
theorem encLists_cons_some (x : SL) (ls : List (Option SL)) :
    encLists (some x :: ls) = true :: (encDeltas x.deltas ++ encLists ls) := rfl

theorem encDeltas_cancel {n last next : Nat} {ds : List Int} {out : List Nat} (h : ScalingList n last next ds out) :
    ∀ {ds' : List Int} {out' : List Nat} {r s : List Bool}, ScalingList n last next ds' out' →
      encDeltas ds ++ r = encDeltas ds' ++ s → r = s := by
  induction h with
  | done => intro ds' out' r s h2 he; cases h2; exact he
  | read hn h1 h2 h3 h4 _ ih =>
    intro ds' out' r s hl he
    cases hl with
    | read _ g1 g2 g3 g4 g5 =>
      simp only [encDeltas, List.flatMap_cons, List.append_assoc] at he
      obtain ⟨rfl, he'⟩ := encSE_cancel ⟨h1, h2⟩ ⟨g1, g2⟩ he
      have := Int.ofNat.inj (g3.trans h3.symm)
      subst this
      subst g4
      subst h4
      exact ih g5 he'
    | keep _ => exact absurd rfl hn
  | keep h0 ih =>
    intro ds' out' r s hl he
    cases hl with
    | read hn _ _ _ _ _ => exact absurd rfl hn
    | keep g => exact ih g he

theorem malformed_not_lists : ∀ (n i : Nat) (l r : List Bool) (ls : List (Option SL)), MalformedLists n i l →
    ls.length = n → ListsOk i ls → l ≠ encLists ls ++ r := by
  intro n
  induction n with
  | zero => rintro i l r ls ⟨ms, _, _, h, _⟩; omega
  | succ n ih =>
    rintro i l r ls ⟨ms, ds, rest, h1, h2, h3, h4⟩ hl hok he
    subst h3
    cases ls with
    | nil => simp at hl
    | cons o ls =>
      simp only [List.length_cons, Nat.add_right_cancel_iff] at hl
      cases ms with
      | nil =>
        cases o with
        | none => simp [encLists, encU] at he
        | some x =>
          rw [encLists_cons_some] at he
          simp only [encLists, encU, List.nil_append, List.cons_append, List.append_assoc, List.cons.injEq] at he
          exact broken_not_list h4 hok.1 he.2.symm
      | cons m ms =>
        simp only [List.length_cons, Nat.add_lt_add_iff_right] at h1
        have hlen : i + (m :: ms).length = i + 1 + ms.length := by simp; omega
        rw [hlen] at h4
        cases o with
        | none =>
          cases m with
          | some y => simp [encLists_cons_some, encLists_cons_none] at he
          | none =>
            simp only [encLists_cons_none, List.cons_append, List.cons.injEq, true_and] at he
            exact ih (i + 1) _ r ls ⟨ms, ds, rest, h1, h2, rfl, h4⟩ hl hok he
        | some x =>
          cases m with
          | none => simp [encLists_cons_some, encLists_cons_none] at he
          | some y =>
            simp only [encLists_cons_some, List.cons_append, List.append_assoc, List.cons.injEq, true_and] at he
            have he' := encDeltas_cancel h2.1 hok.1 he
            refine ih (i + 1) (encLists ms ++ encU 1 1 ++ encDeltas ds ++ rest) r ls
              ⟨ms, ds, rest, h1, h2.2, rfl, h4⟩ hl hok.2 ?_
            simpa only [List.append_assoc] using he'

/-- An SPS with a malformed scaling list is not the encoding of a well-formed SPS. -/
theorem malformed_not_sps {l : List Bool} (h : MalformedSps l) {x : SpsSyn} (ok : x.Ok) (r : List Bool) :
    l ≠ encSps x ++ r := by
  obtain ⟨hd, rest, h1, rfl, h2⟩ := h
  intro he
  unfold encSps at he
  rw [List.append_assoc, List.append_assoc] at he
  have e1 := codec_spsHead.parse_append false h1 rest 0
  rw [he, codec_spsHead.parse_append false ok.head] at e1
  simp only [Out.ok.injEq, LSt.mk.injEq, and_true] at e1
  obtain ⟨rfl, e2⟩ := e1
  exact malformed_not_lists _ _ _ _ _ h2 ok.count ok.lists e2.symm

/-- The bits of an SPS whose first scaling list has delta_scale 200. -/
def badSpsBits : List Bool :=
  encSpsHead exSps.head ++ (encU 1 1 ++ encSE 200 ++ encU 7 0 ++ encSpsTail exSps.tail ++ trailingBits 0)

/-- What is returned for them. -/
def badSpsState : SpsData :=
  { toSpsHead := exSps.head,
    toScal := { scaling_list_present_flag := [1, 0, 0, 0, 0, 0, 0, 0], delta_scale := 200 },
    toSpsTail := exSps.tail }

/-- C29 fails for the parameter set as a whole: this SPS contains a malformed scaling list, and is returned all the
same. -/
theorem C29_malformed_list_accepted (nd : Bool) :
    MalformedSps badSpsBits ∧ ∃ s', runL nd parseSps ⟨badSpsBits, 0⟩ = .ok badSpsState s' := by
  constructor
  · refine ⟨exSps.head, _, exSps_ok.head, rfl, [], [], encSE 200 ++ encU 7 0 ++ encSpsTail exSps.tail ++ trailingBits 0,
      by decide, trivial, by simp [encLists, encDeltas], ?_⟩
    refine .here (by decide) ?_
    rintro d r he ⟨h1, h2⟩
    have e1 := Codec.se.parse_append false (a := 200) ⟨by decide, by decide⟩
      (encU 7 0 ++ encSpsTail exSps.tail ++ trailingBits 0) 0
    have e2 := Codec.se.parse_append false (a := d) ⟨by omega, by omega⟩ r 0
    rw [← he, List.append_assoc, List.append_assoc, ← List.append_assoc (encU 7 0), e1] at e2
    simp only [Out.ok.injEq] at e2
    omega
  · rw [sps_iff]
    refine ⟨⟨trailingBits 0, 0⟩, ?_⟩
    unfold parseSpsData badSpsBits
    rw [runL_bind, codec_spsHead.parse_append nd exSps_ok.head]
    simp only [Out.bind, List.append_assoc]
    have hl : encU 7 0 = encLists (List.replicate 7 none) := rfl
    have hs : ∀ r, runL nd (Prog.opt (exSps.head.seq_scaling_matrix_present_flag ≠ 0) {}
        (scalingLists (if exSps.head.chroma_format_idc ≠ 3 then 8 else 12) 0 {}))
        ⟨encU 1 1 ++ (encSE 200 ++ (encU 7 0 ++ r)), 0⟩ = .ok badSpsState.toScal ⟨r, 0⟩ := by
      intro r
      unfold Prog.opt
      rw [if_pos (by decide), if_pos (by decide)]
      unfold scalingLists
      rw [runL_bind, runL_flag nd (by decide)]
      simp only [Out.bind]
      rw [runL_bind]
      unfold Prog.opt
      rw [if_pos (by decide)]
      unfold scalingCall
      rw [if_pos (by decide), runL_bind]
      unfold scalingList scalingLoop
      rw [if_pos (by decide), runL_bind, runL_attempt, Codec.se.parse_append nd (a := 200) ⟨by decide, by decide⟩]
      simp only [Out.bind]
      rw [if_pos (by decide)]
      simp only [Prog.pure_eq, runL_ret]
      rw [hl]
      exact scalingLists_ok nd (List.replicate 7 none) 1 _ r 0 ⟨by decide, by decide⟩ (by simp [ListsOk, List.replicate])
    rw [runL_bind, hs]
    simp only [Out.bind]
    rw [runL_bind, (codec_spsTail exSps_ok.head).parse_append nd exSps_ok.tail]
    simp only [Out.bind, Prog.pure_eq, runL_ret, badSpsState]

/-! ### C27 -/

/-- C27: whatever the input, a returned SPS has all its fields in range. -/
theorem C27_sps_in_range (nd : Bool) {b : Buf} (hb : b.WF) (c : Nat) {st : SpsData} {s' : St}
    (h : run nd parseSps ⟨b, c⟩ = .ok st s') :
    st.seq_parameter_set_id ≤ 31 ∧ st.chroma_format_idc ≤ 3 ∧
    8 + st.bit_depth_luma_minus8 ≤ 14 ∧ 8 + st.bit_depth_chroma_minus8 ≤ 14 ∧
    st.log2_max_frame_num_minus4 ≤ 12 ∧ st.pic_order_cnt_type ≤ 2 ∧ st.log2_max_pic_order_cnt_lsb_minus4 ≤ 12 ∧
    st.num_ref_frames_in_pic_order_cnt_cycle ≤ 255 ∧
    st.offset_for_ref_frame.length = st.num_ref_frames_in_pic_order_cnt_cycle ∧
    st.max_num_ref_frames ≤ 16 ∧ st.pic_width_in_mbs_minus1 + 1 ≤ 1056 ∧ st.pic_height_in_map_units_minus1 + 1 ≤ 1056 ∧
    cropX st.toSpsHead st.toSpsTail < picWidth st.toSpsTail ∧
    cropY st.toSpsHead st.toSpsTail < frameHeight st.toSpsTail ∧
    (st.vui_parameters_present_flag = 1 ↔ st.vui_parameters.isSome) := by
  obtain ⟨s1, h1, _⟩ := (run_ok_iff nd _ hb c _ _).mp h
  obtain ⟨s2, h2⟩ := (sps_iff nd _ _).mp ⟨s1, h1⟩
  obtain ⟨hok, tok, _⟩ := spsData_ranges nd h2
  have p0 := tok.poc0; have p1 := tok.poc1; have hv := tok.vui
  refine ⟨hok.seq_parameter_set_id, hok.chroma_format_idc, by have := hok.bit_depth_luma_minus8; omega,
    by have := hok.bit_depth_chroma_minus8; omega, tok.log2_max_frame_num_minus4, tok.pic_order_cnt_type, ?_, ?_, ?_,
    tok.max_num_ref_frames, by have := tok.width; omega, by have := tok.height; omega, tok.cropX, tok.cropY, ?_⟩
  · split at p0 <;> omega
  · by_cases hp : st.pic_order_cnt_type = 1
    · rw [if_pos hp] at p1; exact p1.2.2.2.1
    · rw [if_neg hp] at p1; have := p1.2.2.2.1; omega
  · by_cases hp : st.pic_order_cnt_type = 1
    · rw [if_pos hp] at p1; exact p1.2.2.2.2.1
    · rw [if_neg hp] at p1; rw [p1.2.2.2.1, p1.2.2.2.2]; rfl
  · by_cases hp : st.vui_parameters_present_flag = 1
    · rw [if_pos hp] at hv
      obtain ⟨v, hv, _⟩ := hv
      simp [hp, hv]
    · rw [if_neg hp] at hv
      simp [hp, hv]

/-! ### C28 -/

/-- C28: for every SPS the parser returns, `getResolution` overflows nowhere and gives the cropped width and height of
the standard, both positive. -/
theorem C28_resolution (nd : Bool) {b : Buf} (hb : b.WF) (c : Nat) {st : SpsData} {s' : St}
    (h : run nd parseSps ⟨b, c⟩ = .ok st s') :
    ∃ w hgt : Nat, st.getResolution = .val (some ((w : Int), (hgt : Int))) ∧ 0 < w ∧ 0 < hgt ∧
      w + cropX st.toSpsHead st.toSpsTail = picWidth st.toSpsTail ∧
      hgt + cropY st.toSpsHead st.toSpsTail = frameHeight st.toSpsTail := by
  obtain ⟨s1, h1, _⟩ := (run_ok_iff nd _ hb c _ _).mp h
  obtain ⟨s2, h2⟩ := (sps_iff nd _ _).mp ⟨s1, h1⟩
  obtain ⟨hok, tok, _⟩ := spsData_ranges nd h2
  have hx := tok.cropX; have hy := tok.cropY
  exact ⟨_, _, getResolution_eq hok tok, by omega, by omega, by omega, by omega⟩

example : exSps.state.getResolution = .val (some (1920, 1080)) := by
  rw [getResolution_eq exSps_ok.head exSps_ok.tail]; decide +kernel

end H264.Props
