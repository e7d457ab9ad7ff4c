import Verif.Codecs.Subset
import Verif.Props.Sps

/-
Properties C43 and C44: SPS SVC extension, subset SPS, SPS extension.
-/

namespace H264.Props
open H264

/-! ### C43 -/

/-- C43: `ParseSpsSvcExtension` returns `e` iff the next bits are its G.7.3.2.1.4 encoding and `e` is in range; it has
then consumed exactly that encoding. -/
theorem C43_spsSvcExt_exact (nd : Bool) {b : Buf} (hb : b.WF) (c cat : Nat) (e : SpsSvcExt) (s' : St) :
    run nd (parseSpsSvcExt cat) ⟨b, c⟩ = .ok e s' ↔
      e.Ok cat ∧ (∃ r, b.rem = encSpsSvcExt e ++ r) ∧ s' = ⟨b.adv (encSpsSvcExt e).length, c⟩ :=
  (codec_spsSvcExt cat).run nd hb c e s'

theorem C43_spsSvcExt_safe (nd : Bool) {b : Buf} (hb : b.WF) (c cat : Nat) (x : Bad) :
    run nd (parseSpsSvcExt cat) ⟨b, c⟩ ≠ .bad x := (safe_spsSvcExt cat).run nd hb c x

/-- A 4:2:0 extension with every optional part. -/
def exSvcExt : SpsSvcExt :=
  { ChromaArrayType := 1, inter_layer_deblocking_filter_control_present_flag := 1, extended_spatial_scalability_idc := 1,
    chroma_phase_x_plus1_flag := 1, chroma_phase_y_plus1 := 2, seq_ref_layer_chroma_phase_x_plus1_flag := 1,
    seq_ref_layer_chroma_phase_y_plus1 := 3, seq_scaled_ref_layer_left_offset := -4,
    seq_scaled_ref_layer_bottom_offset := 9, seq_tcoeff_level_prediction_flag := 1,
    adaptive_tcoeff_level_prediction_flag := 1 }
theorem exSvcExt_ok : exSvcExt.Ok 1 := by
  constructor <;> first
    | decide
    | exact ⟨⟨by decide, by decide⟩, ⟨by decide, by decide⟩, ⟨by decide, by decide⟩, ⟨by decide, by decide⟩⟩
example (nd : Bool) : runL nd (parseSpsSvcExt 1) ⟨encSpsSvcExt exSvcExt ++ [true], 0⟩ = .ok exSvcExt ⟨[true], 0⟩ :=
  (codec_spsSvcExt 1).parse_append nd exSvcExt_ok _ _

/-- The end of the subset SPS. -/
theorem runL_parseExt2 (nd : Bool) {f : Nat} (hf : f < 2) (l : List Bool) (c : Nat) :
    ∃ d r, l = d ++ r ∧ runL nd parseExt2 ⟨encU 1 f ++ l, c⟩ = .ok (f, (d.map bitNat).getLastD 0) ⟨r, c⟩ ∧
      (f ≠ 1 → d = []) ∧ (f = 1 → (r = [] ∨ ∃ k, k ≤ 7 ∧ r = trailingBits k) ∧
        ∀ p k, k ≤ 7 → l = p ++ trailingBits k → d = p) := by
  unfold parseExt2 Prog.opt
  by_cases h1 : f = 1
  · obtain ⟨d, r, e1, e2, e3, e4⟩ := runL_ext2Loop nd l c
    refine ⟨d, r, e1, ?_, fun h => absurd h1 h, fun _ => ⟨e3, e4⟩⟩
    rw [runL_bind, (Codec.u' (n := 1)).parse_append nd hf]
    simp only [Out.bind]
    rw [if_pos h1, runL_bind, e2]
    rfl
  · refine ⟨[], l, rfl, ?_, fun _ => rfl, fun h => absurd h h1⟩
    rw [runL_bind, (Codec.u' (n := 1)).parse_append nd hf]
    simp only [Out.bind]
    rw [if_neg h1]
    rfl

theorem bitNat_map {d : List Nat} (h : ∀ v ∈ d, v < 2) : (d.map (fun v => decide (v = 1))).map bitNat = d ∧
    d.map (fun v => decide (v = 1)) = d.flatMap (encU 1) := by
  induction d with
  | nil => exact ⟨rfl, rfl⟩
  | cons a t ih =>
    obtain ⟨h1, h2⟩ := ih (fun v hv => h v (List.mem_cons_of_mem _ hv))
    have ha := h a (List.mem_cons_self ..)
    have : a = 0 ∨ a = 1 := by omega
    rw [List.map_cons, List.map_cons, h1, List.flatMap_cons, h2]
    rcases this with rfl | rfl
    · exact ⟨rfl, rfl⟩
    · exact ⟨rfl, rfl⟩

theorem subset_complete (nd : Bool) (c : Nat) {x : SubsetSyn} (ok : x.Ok) {l r : List Bool}
    (h : l = encSubset x ++ r) (hr : x.additional_extension2_flag = 1 → ∃ k, k ≤ 7 ∧ r = trailingBits k) :
    ∃ s1, runL nd parseSubsetSps ⟨l, c⟩ = .ok x.state s1 := by
  rw [runL_subsetSps]
  obtain ⟨d, r', e1, e2, e3, e4⟩ := runL_parseExt2 nd ok.ext2 (x.data.flatMap (encU 1) ++ r) c
  have hd : (d.map bitNat).getLastD 0 = x.data.getLastD 0 := by
    have := ok.data
    by_cases h1 : x.additional_extension2_flag = 1
    · rw [if_pos h1] at this
      obtain ⟨k, hk, rfl⟩ := hr h1
      have := bitNat_map this
      rw [(e4 h1).2 _ k hk rfl, ← this.2, this.1]
    · rw [if_neg h1] at this
      rw [e3 h1, this]; rfl
  have hcat : getChromaArrayType x.state.seq_parameter_set_data = chromaArrayType x.sps.head :=
    getChromaArrayType_eq (s := x.sps.state) ⟨ok.sps.head, ok.sps.tail⟩
  have hl : l = encSps x.sps ++ (encSubsetExt x ++ (encU 1 x.additional_extension2_flag ++ (x.data.flatMap (encU 1) ++ r))) := by
    rw [h]; unfold encSubset; simp only [List.append_assoc]
  rw [hcat, hl]
  refine ⟨_, _, ⟨encU 1 x.additional_extension2_flag ++ (x.data.flatMap (encU 1) ++ r), c⟩,
    spsData_complete nd ok.sps _ c, ?_, rfl, ⟨r', c⟩, ?_⟩
  · show runL nd (parseSubsetExt x.sps.head.profile_idc _) _ = _
    have hm := ok.known
    by_cases hs : svcProfile x.sps.head.profile_idc
    · obtain ⟨h1, h2⟩ := ok.svc hs
      refine (codec_subsetExtSvc hs nd _ c _ _).mpr ⟨⟨⟨x.svc, ?_, h1⟩, ?_, rfl⟩, _, ?_, rfl⟩
      · simp only [SubsetSyn.state, if_pos hs]
      · exact Nat.zero_lt_two
      · simp only [SubsetSyn.state, if_pos hs, encOpt, encSubsetExt, encIf, if_neg hm.1, if_neg hm.2, h2, List.append_nil]
        rw [if_neg (by decide)]
        simp only [List.append_nil, List.append_assoc]
    · rw [parseSubsetExt_none _ hs hm.1 hm.2]
      simp only [encSubsetExt, encIf, if_neg hs, if_neg hm.1, if_neg hm.2, List.append_nil, List.nil_append, runL_ret,
        SubsetSyn.state]
  · rw [e2, hd]; rfl

/-- C43: on the encoding of a well-formed subset SPS (scalable profile without VUI extension, or no extension), followed
by its trailing bits, `ParseSubsetSps` returns its state.  Without additional extension anything may follow.  Partial:
the other profiles and the VUI extension are not implemented by the library (see `C43_svc_vui_misread` and
`C43_mvc_misread`); of the scaling lists only the last ones are kept (C26). -/
theorem C43_subset_complete_partial (nd : Bool) {b : Buf} (hb : b.WF) (c : Nat) {x : SubsetSyn} (ok : x.Ok) {r : List Bool}
    (h : b.rem = encSubset x ++ r) (hr : x.additional_extension2_flag = 1 → ∃ k, k ≤ 7 ∧ r = trailingBits k) :
    ∃ s', run nd parseSubsetSps ⟨b, c⟩ = .ok x.state s' := by
  obtain ⟨s1, h1⟩ := subset_complete nd c ok h hr
  exact ⟨toSt b s1, (run_ok_iff nd _ hb c _ _).mpr ⟨s1, h1, rfl⟩⟩

/-- C43: conversely, a returned subset SPS of these profiles was decoded from its encoding, unless a scaling list was
malformed (C26). -/
theorem C43_subset_sound_partial (nd : Bool) {b : Buf} (hb : b.WF) (c : Nat) {st : SubsetSps} {s' : St}
    (h : run nd parseSubsetSps ⟨b, c⟩ = .ok st s') (hm : ¬ MalformedSps b.rem)
    (h1 : ¬ mvcProfile st.seq_parameter_set_data.profile_idc) (h2 : ¬ mvcdProfile st.seq_parameter_set_data.profile_idc)
    (h3 : st.svc_vui_parameters_present_flag = 0) :
    ∃ x r, x.Ok ∧ st = x.state ∧ b.rem = encSubset x ++ r ∧
      (x.additional_extension2_flag = 1 → r = [] ∨ ∃ k, k ≤ 7 ∧ r = trailingBits k) := by
  obtain ⟨s1, hL, _⟩ := (run_ok_iff nd _ hb c _ _).mp h
  obtain ⟨s2, e, s3, a1, a2, a3, s4, a4⟩ := (runL_subsetSps nd _ st).mp ⟨s1, hL⟩
  rcases spsData_sound nd a1 with ⟨y, r, b1, b2, b3, b4⟩ | h'
  rotate_left
  · exact absurd h' hm
  subst b4
  have hcat : getChromaArrayType st.seq_parameter_set_data = chromaArrayType y.head := by
    rw [b2]; exact getChromaArrayType_eq (s := y.state) ⟨b1.head, b1.tail⟩
  have hprof : st.seq_parameter_set_data.profile_idc = y.head.profile_idc := by rw [b2]; rfl
  rw [hcat, hprof] at a2
  rw [hprof] at h1 h2
  -- the flag and the data
  have ext2 : ∀ r, s3 = ⟨r, c⟩ → ∃ d r', st.additional_extension2_flag < 2 ∧
      r = encU 1 st.additional_extension2_flag ++ (d.flatMap (encU 1) ++ r') ∧
      st.additional_extension2_data_flag = d.getLastD 0 ∧
      (if st.additional_extension2_flag = 1 then ∀ v ∈ d, v < 2 else d = []) ∧
      (st.additional_extension2_flag = 1 → r' = [] ∨ ∃ k, k ≤ 7 ∧ r' = trailingBits k) := by
    rintro r rfl
    have a4' := a4
    unfold parseExt2 at a4'
    rw [runL_bind_ok] at a4'
    obtain ⟨f, s5, c1, c2⟩ := a4'
    obtain ⟨hf, r5, rfl, rfl⟩ := ((Codec.u' (n := 1)) nd _ c f s5).mp c1
    obtain ⟨d, r', e1, e2, e3, e4⟩ := runL_parseExt2 nd hf r5 c
    rw [e2] at a4
    simp only [Out.ok.injEq, Prod.mk.injEq] at a4
    obtain ⟨⟨rfl, g2⟩, _⟩ := a4
    refine ⟨d.map bitNat, r', hf, ?_, g2.symm, ?_, fun h => (e4 h).1⟩
    · rw [encU1_flatMap, e1]
    · split
      · intro v hv
        obtain ⟨w, _, rfl⟩ := List.mem_map.mp hv
        cases w <;> decide
      · rw [e3 ‹_›]; rfl
  by_cases hs : svcProfile y.head.profile_idc
  · obtain ⟨⟨⟨sv, g1, g2⟩, g3, g4⟩, r3, g5, g6⟩ := (codec_subsetExtSvc hs nd r c e s3).mp a2
    obtain ⟨d, r', f1, f2, f3, f4, f5⟩ := ext2 r3 g6
    rw [a3] at g1 g4 g5
    simp only [Prod.mk.injEq] at g1 g4 g5
    refine ⟨{ sps := y, svc := sv, additional_extension2_flag := st.additional_extension2_flag, data := d }, r',
      ⟨b1, ⟨h1, h2⟩, fun _ => ⟨g2, rfl⟩, f1, f4⟩, ?_, ?_, f5⟩
    · cases st
      simp only at b2 g1 g4 h3 f3
      obtain ⟨g41, g42⟩ := g4
      subst b2 g1 g41 g42 h3 f3
      simp only [SubsetSyn.state, if_pos hs]
    · rw [b3, g5, f2, g1, h3]
      simp only [encSubset, encSubsetExt, encIf, if_pos hs, if_neg h1, if_neg h2, encOpt]
      rw [if_neg (by decide)]
      simp only [List.append_nil, List.append_assoc]
  · rw [parseSubsetExt_none _ hs h1 h2] at a2
    simp only [runL_ret, Out.ok.injEq] at a2
    obtain ⟨g1, g2⟩ := a2
    obtain ⟨d, r', f1, f2, f3, f4, f5⟩ := ext2 r g2.symm
    rw [← g1] at a3
    simp only [Prod.mk.injEq] at a3
    refine ⟨{ sps := y, additional_extension2_flag := st.additional_extension2_flag, data := d }, r',
      ⟨b1, ⟨h1, h2⟩, fun h => absurd h hs, f1, f4⟩, ?_, ?_, f5⟩
    · cases st
      simp only at b2 a3 f3
      obtain ⟨g1, g2, g3, g4⟩ := a3
      subst b2 g1 g2 g3 g4 f3
      simp only [SubsetSyn.state, if_neg hs]
    · rw [b3, f2]
      simp only [encSubset, encSubsetExt, encIf, if_neg hs, if_neg h1, if_neg h2]
      simp only [List.append_nil, List.append_assoc]

/-- C43: undefined behaviour never happens, and the data flag loop terminates. -/
theorem C43_subset_safe (nd : Bool) {b : Buf} (hb : b.WF) (c : Nat) (x : Bad) : run nd parseSubsetSps ⟨b, c⟩ ≠ .bad x :=
  safe_subsetSps.run nd hb c x

/-- C43: whatever the input, a returned subset SPS is in range, and has an SVC extension exactly in the scalable
profiles. -/
theorem C43_subset_in_range (nd : Bool) {b : Buf} (hb : b.WF) (c : Nat) {st : SubsetSps} {s' : St}
    (h : run nd parseSubsetSps ⟨b, c⟩ = .ok st s') : st.InRange := by
  obtain ⟨s1, h1, _⟩ := (run_ok_iff nd _ hb c _ _).mp h
  exact subsetSps_ranges nd h1

/-- C43 fails for scalable SPS with a VUI extension: its first bit is taken for additional_extension2_flag. -/
theorem C43_svc_vui_misread (nd : Bool) {b : Buf} (hb : b.WF) (c : Nat) {x : SubsetSyn} {v : Bool} {vs r : List Bool}
    (h1 : x.sps.Ok) (hs : svcProfile x.sps.head.profile_idc) (h2 : x.svc.Ok (chromaArrayType x.sps.head))
    (hf : x.svc_vui_parameters_present_flag = 1) (hv : x.svc_vui = v :: vs) (h : b.rem = encSubset x ++ r) :
    ∃ st s', run nd parseSubsetSps ⟨b, c⟩ = .ok st s' ∧ st.additional_extension2_flag = bitNat v := by
  have hm1 : ¬ mvcProfile x.sps.head.profile_idc := by unfold svcProfile at hs; unfold mvcProfile; omega
  have hm2 : ¬ mvcdProfile x.sps.head.profile_idc := by unfold svcProfile at hs; unfold mvcdProfile; omega
  have hcat : getChromaArrayType x.sps.state = chromaArrayType x.sps.head :=
    getChromaArrayType_eq (s := x.sps.state) ⟨h1.head, h1.tail⟩
  have hl : b.rem = encSps x.sps ++ (encSpsSvcExt x.svc ++ encU 1 1 ++
      (encU 1 (bitNat v) ++ (vs ++ encU 1 x.additional_extension2_flag ++ x.data.flatMap (encU 1) ++ r))) := by
    rw [h, encU1_bitNat]
    simp only [encSubset, encSubsetExt, encIf, if_pos hs, if_neg hm1, if_neg hm2, hf, hv]
    simp only [if_true, List.append_nil, List.append_assoc, List.cons_append, List.nil_append]
  obtain ⟨d, r', e1, e2, e3, e4⟩ := runL_parseExt2 nd (f := bitNat v) (by cases v <;> decide)
    (vs ++ encU 1 x.additional_extension2_flag ++ x.data.flatMap (encU 1) ++ r) c
  have key : ∃ s1, runL nd parseSubsetSps ⟨b.rem, c⟩ =
      .ok { seq_parameter_set_data := x.sps.state, seq_parameter_set_svc_extension := some x.svc,
            svc_vui_parameters_present_flag := 1, additional_extension2_flag := bitNat v,
            additional_extension2_data_flag := (d.map bitNat).getLastD 0 } s1 := by
    rw [runL_subsetSps, hl]
    refine ⟨_, _, _, spsData_complete nd h1 _ c, ?_, rfl, ⟨r', c⟩, e2⟩
    rw [hcat]
    exact (codec_subsetExtSvc hs nd _ c _ _).mpr ⟨⟨⟨x.svc, rfl, h2⟩, Nat.one_lt_two, rfl⟩, _, rfl, rfl⟩
  obtain ⟨s1, hk⟩ := key
  exact ⟨_, toSt b s1, (run_ok_iff nd _ hb c _ _).mpr ⟨s1, hk, rfl⟩, rfl⟩

/-- C43 fails for the multiview profiles: the first bit of the MVC extension is taken for
mvc_vui_parameters_present_flag. -/
theorem C43_mvc_misread (nd : Bool) {b : Buf} (hb : b.WF) (c : Nat) {x : SubsetSyn} {v w : Bool} {vs r : List Bool}
    (h1 : x.sps.Ok) (hs : mvcProfile x.sps.head.profile_idc) (hf : x.bit_equal_to_one = 1)
    (hv : x.mvc = v :: w :: vs) (h : b.rem = encSubset x ++ r) :
    ∃ st s', run nd parseSubsetSps ⟨b, c⟩ = .ok st s' ∧ st.mvc_vui_parameters_present_flag = bitNat v := by
  have hm1 : ¬ svcProfile x.sps.head.profile_idc := by unfold mvcProfile at hs; unfold svcProfile; omega
  have hm2 : ¬ mvcdProfile x.sps.head.profile_idc := by unfold mvcProfile at hs; unfold mvcdProfile; omega
  have hl : ∃ r2, b.rem = encSps x.sps ++ (encU 1 1 ++ (encU 1 (bitNat v) ++ (encU 1 (bitNat w) ++ r2))) := by
    rw [h, encU1_bitNat, encU1_bitNat]
    simp only [encSubset, encSubsetExt, encIf, if_pos hs, if_neg hm1, if_neg hm2, hf, hv]
    simp only [List.append_nil, List.append_assoc, List.cons_append, List.nil_append]
    exact ⟨_, rfl⟩
  obtain ⟨r2, hl⟩ := hl
  obtain ⟨d, r', e1, e2, e3, e4⟩ := runL_parseExt2 nd (f := bitNat w) (by cases w <;> decide) r2 c
  have key : ∃ s1, runL nd parseSubsetSps ⟨b.rem, c⟩ =
      .ok { seq_parameter_set_data := x.sps.state, bit_equal_to_one := 1,
            mvc_vui_parameters_present_flag := bitNat v, additional_extension2_flag := bitNat w,
            additional_extension2_data_flag := (d.map bitNat).getLastD 0 } s1 := by
    rw [runL_subsetSps, hl]
    refine ⟨_, _, _, spsData_complete nd h1 _ c, ?_, rfl, ⟨r', c⟩, e2⟩
    show runL nd (parseSubsetExt x.sps.head.profile_idc _) _ = _
    unfold parseSubsetExt
    unfold svcProfile at hm1
    unfold mvcProfile at hs
    rw [if_neg hm1, if_pos hs, runL_bind, (Codec.u' (n := 1)).parse_append nd Nat.one_lt_two]
    simp only [Out.bind]
    rw [runL_bind, (Codec.u' (n := 1)).parse_append nd (by cases v <;> decide)]
    rfl
  obtain ⟨s1, hk⟩ := key
  exact ⟨_, toSt b s1, (run_ok_iff nd _ hb c _ _).mpr ⟨s1, hk, rfl⟩, rfl⟩

/-- A Scalable High subset SPS with additional extension data. -/
def exSubset : SubsetSyn :=
  { sps := { exSps with head := { exSps.head with profile_idc := 86 } }, svc := exSvcExt, additional_extension2_flag := 1,
    data := [1, 0, 1] }

theorem exSubset_sps_ok : exSubset.sps.Ok := by
  have := exSps_ok
  refine ⟨?_, rfl, this.lists, ?_⟩
  · constructor <;> decide +kernel
  · exact { this.tail with cropX := by decide +kernel, cropY := by decide +kernel }

theorem exSubset_ok : exSubset.Ok :=
  ⟨exSubset_sps_ok, by decide, fun _ => ⟨exSvcExt_ok, rfl⟩, by decide, by decide⟩

example (nd : Bool) {b : Buf} (hb : b.WF) (h : b.rem = encSubset exSubset ++ trailingBits 4) :
    ∃ s', run nd parseSubsetSps ⟨b, 0⟩ = .ok exSubset.state s' :=
  C43_subset_complete_partial nd hb 0 exSubset_ok h (fun _ => ⟨4, by decide, rfl⟩)
example : exSubset.state.additional_extension2_data_flag = 1 ∧
    exSubset.state.seq_parameter_set_svc_extension = some exSvcExt := by decide +kernel

/-- With a VUI extension the flag is misread: here additional_extension2_flag is 0, and 1 is returned. -/
example (nd : Bool) {b : Buf} (hb : b.WF) (x : SubsetSyn)
    (hx : x = { exSubset with svc_vui_parameters_present_flag := 1, svc_vui := [true, false, true],
                              additional_extension2_flag := 0, data := [] })
    (h : b.rem = encSubset x ++ trailingBits 4) :
    ∃ st s', run nd parseSubsetSps ⟨b, 0⟩ = .ok st s' ∧ st.additional_extension2_flag ≠ x.additional_extension2_flag := by
  obtain ⟨st, s', h1, h2⟩ := C43_svc_vui_misread nd hb 0 (x := x) (v := true) (vs := [false, true])
    (by rw [hx]; exact exSubset_sps_ok) (by rw [hx]; decide) (by rw [hx]; exact exSvcExt_ok) (by rw [hx]) (by rw [hx]) h
  exact ⟨st, s', h1, by rw [h2, hx]; decide⟩

/-- A Multiview High subset SPS: mvc_vui_parameters_present_flag is 0, and 1 is returned. -/
example (nd : Bool) {b : Buf} (hb : b.WF) (x : SubsetSyn)
    (hx : x = { sps := { exSps with head := { exSps.head with profile_idc := 118 } }, bit_equal_to_one := 1,
                mvc := [true, true, true] })
    (h : b.rem = encSubset x ++ trailingBits 4) :
    ∃ st s', run nd parseSubsetSps ⟨b, 0⟩ = .ok st s' ∧
      st.mvc_vui_parameters_present_flag ≠ x.mvc_vui_parameters_present_flag := by
  obtain ⟨st, s', h1, h2⟩ := C43_mvc_misread nd hb 0 (x := x) (v := true) (w := true) (vs := [true])
    (by
      have := exSps_ok
      rw [hx]
      refine ⟨?_, rfl, this.lists, ?_⟩
      · constructor <;> decide +kernel
      · exact { this.tail with cropX := by decide +kernel, cropY := by decide +kernel })
    (by rw [hx]; decide) (by rw [hx]) (by rw [hx]) h
  exact ⟨st, s', h1, by rw [h2, hx]; decide⟩

/-- The hypotheses of `C43_subset_sound_partial` are met by the bits of `exSubset`. -/
example {b : Buf} (h : b.rem = encSubset exSubset ++ trailingBits 4) : ¬ MalformedSps b.rem := by
  intro hm
  rw [h] at hm
  unfold encSubset at hm
  simp only [List.append_assoc] at hm
  exact malformed_not_sps hm exSubset_sps_ok _ rfl

/-! ### C44 -/

/-- C44: `ParseSpsExtension` returns `e` iff the RBSP starts with its 7.3.2.1.2 encoding and `e` is in range. -/
theorem C44_spsExt_exact (nd : Bool) {b : Buf} (hb : b.WF) (c : Nat) (e : SpsExt) :
    (∃ s', run nd parseSpsExt ⟨b, c⟩ = .ok e s') ↔ e.Ok ∧ ∃ r, b.rem = encSpsExt e ++ r := by
  have : (∃ s', run nd parseSpsExt ⟨b, c⟩ = .ok e s') ↔ ∃ s', runL nd parseSpsExt ⟨b.rem, c⟩ = .ok e s' := by
    constructor
    · rintro ⟨s', h⟩
      obtain ⟨s1, h1, _⟩ := (run_ok_iff nd _ hb c _ _).mp h
      exact ⟨s1, h1⟩
    · rintro ⟨s1, h⟩
      exact ⟨toSt b s1, (run_ok_iff nd _ hb c _ _).mpr ⟨s1, h, rfl⟩⟩
  rw [this, spsExt_iff]
  constructor
  · rintro ⟨s', h⟩
    obtain ⟨ok, r, h1, _⟩ := (codec_spsExtData nd _ c e s').mp h
    exact ⟨ok, r, h1⟩
  · rintro ⟨ok, r, h1⟩
    exact ⟨⟨r, c⟩, (codec_spsExtData nd _ c e _).mpr ⟨ok, r, h1, rfl⟩⟩

/-- C44: undefined behaviour never happens. -/
theorem C44_spsExt_safe (nd : Bool) {b : Buf} (hb : b.WF) (c : Nat) (x : Bad) : run nd parseSpsExt ⟨b, c⟩ ≠ .bad x :=
  safe_spsExt.run nd hb c x

/-- C44: the answer does not depend on the build mode. -/
theorem C44_mode_independent : ModeIndep parseSpsExt := mode_spsExt

/-- An extension with an alpha plane of depth 12. -/
def exSpsExt : SpsExt :=
  { seq_parameter_set_id := 31, aux_format_idc := 2, bit_depth_aux_minus8 := 4, alpha_incr_flag := 1,
    alpha_opaque_value := 8191, alpha_transparent_value := 5, additional_extension_flag := 1 }
theorem exSpsExt_ok : exSpsExt.Ok := by
  constructor <;> first
    | decide
    | exact show (2 : Nat) < 2 ^ 32 - 1 by decide
example (nd : Bool) : runL nd parseSpsExtData ⟨encSpsExt exSpsExt ++ [true], 0⟩ = .ok exSpsExt ⟨[true], 0⟩ :=
  codec_spsExtData.parse_append nd exSpsExt_ok _ _

end H264.Props
