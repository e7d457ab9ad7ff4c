import Verif.Codecs.Malformed
import Verif.Props.Subset
import Verif.Props.Pps

/-
Properties C26, C29, C30 and C43 for every input: exactly which bits are accepted as a parameter set and what is
returned for them, including parameter sets with malformed scaling lists.
-/

namespace H264.Props
open H264 Prog

/-! ### C29 -/

/-- C29: what `scaling_list` does on every input: the value returned, what it leaves in the vectors, and where reading
goes on. -/
theorem C29_scaling_list_exact (nd : Bool) (i size : Nat) (s : SLSt) {b : Buf} (hb : b.WF) (c : Nat) :
    ∃ r out ds ok, ListRead nd size 8 8 b.rem r out ds ok ∧
      run nd (scalingList i size s) ⟨b, c⟩ =
        .ok (ok, ⟨out ++ s.list.drop out.length, flagsAfter s.useDef i ds, ds.getLast?.getD s.delta⟩) (toSt b ⟨r, c⟩) := by
  obtain ⟨r, out, ds, ok, h⟩ := ListRead.total nd size 8 8 b.rem (by omega)
  refine ⟨r, out, ds, ok, h, ?_⟩
  rw [run_ok_iff nd _ hb c]
  exact ⟨_, scalingList_read nd i size h s c, rfl⟩

/-- C29: a list is read as well formed iff the bits code a scaling list of the standard. -/
theorem C29_well_formed_iff (nd : Bool) {n last next : Nat} {l r : List Bool} {out : List Nat} {ds : List Int} :
    ListRead nd n last next l r out ds true ↔ ScalingList n last next ds out ∧ l = encDeltas ds ++ r :=
  listRead_iff_ok nd

/-- Well-formed lists are read as themselves. -/
theorem listsRead_ok (nd : Bool) : ∀ (ls : List (Option SL)) (i : Nat) (s : Scal) (r : List Bool), s.Small → ListsOk i ls →
    ListsRead nd ls.length i s (encLists ls ++ r) r (keepLists i s ls) := by
  intro ls i s r hs hok
  obtain ⟨r', h1, h2⟩ := (scalingLists_iff nd ls.length i s _ _ 0 _).mp (scalingLists_ok nd ls i s r 0 hs hok)
  simp only [LSt.mk.injEq, and_true] at h2
  rw [← h2] at h1; exact h1

/-! ### C26 -/

/-- C26, for every input: `ParseSps` returns `st` iff the RBSP starts with the coded head of `st`, then the scaling lists
that give `st` (well formed or not), then the coded tail of `st`. -/
theorem C26_sps_exact (nd : Bool) {b : Buf} (hb : b.WF) (c : Nat) (st : SpsData) :
    (∃ s', run nd parseSps ⟨b, c⟩ = .ok st s') ↔ ∃ r, SpsRead nd st b.rem r := by
  constructor
  · rintro ⟨s', h⟩
    obtain ⟨s1, h1, _⟩ := (run_ok_iff nd _ hb c _ _).mp h
    obtain ⟨s2, h2⟩ := (sps_iff nd _ _).mp ⟨s1, h1⟩
    obtain ⟨r, h3, _⟩ := (spsData_iff nd _ _ _ _).mp h2
    exact ⟨r, h3⟩
  · rintro ⟨r, h⟩
    obtain ⟨s1, h1⟩ := (sps_iff nd ⟨b.rem, c⟩ st).mpr ⟨_, (spsData_iff nd _ _ _ _).mpr ⟨r, h, rfl⟩⟩
    exact ⟨toSt b s1, (run_ok_iff nd _ hb c _ _).mpr ⟨s1, h1, rfl⟩⟩

/-- C26: the encoding of a well-formed SPS is read as that SPS. -/
theorem C26_well_formed_read (nd : Bool) {x : SpsSyn} (ok : x.Ok) (r : List Bool) : SpsRead nd x.state (encSps x ++ r) r := by
  refine ⟨ok.head, ok.tail, encLists x.lists ++ (encSpsTail x.tail ++ r), encSpsTail x.tail ++ r, ?_, ?_, rfl⟩
  · simp only [encSps, SpsSyn.state, List.append_assoc]
  · have := listsRead_ok nd x.lists 0 {} (encSpsTail x.tail ++ r) ⟨by decide, by decide⟩ ok.lists
    rw [ok.count] at this
    exact this

/-! ### C30 -/

theorem pps_iff (nd : Bool) (cf : Nat) (st : Pps) (l : List Bool) (c : Nat) :
    (∃ s', runL nd (parsePps cf) ⟨l, c⟩ = .ok st s') ↔ PpsRead nd cf st l := by
  constructor
  · rintro ⟨s', h⟩
    unfold parsePps at h
    rw [runL_bind_ok] at h
    obtain ⟨hd, s1, h1, h⟩ := h
    obtain ⟨hok, l1, hl, hs⟩ := (codec_ppsHead nd l c hd s1).mp h1
    subst hs
    rw [runL_bind_ok] at h
    obtain ⟨more, s2, h2, h⟩ := h
    rw [runL_more] at h2
    simp only [Out.ok.injEq] at h2
    obtain ⟨hmd, rfl⟩ := h2
    rw [runL_bind_ok] at h
    obtain ⟨⟨t, m, sc, q⟩, s3, h3, h⟩ := h
    rw [runL_bind_ok] at h
    obtain ⟨_, s4, _, h⟩ := h
    simp only [Prog.pure_eq, runL_ret, Out.ok.injEq] at h
    obtain ⟨rfl, -⟩ := h
    refine ⟨hok, rfl, l1, hl, ?_⟩
    unfold opt at h3
    cases more with
    | false =>
      rw [if_neg (by simp)] at h3
      simp only [Prog.pure_eq, runL_ret, Out.ok.injEq, Prod.mk.injEq] at h3
      obtain ⟨⟨rfl, rfl, rfl, rfl⟩, -⟩ := h3
      exact Or.inl ⟨(moreData_false l1).mp hmd, rfl, rfl, rfl, rfl⟩
    | true =>
      rw [if_pos rfl] at h3
      obtain ⟨ht, hm, hq, l2, l3, r, e1, e2, e3, -⟩ := (ppsExt_iff nd cf l1 c t m sc q s3).mp h3
      refine Or.inr ⟨?_, ht, hm, hq, l2, l3, r, e1, e2, e3⟩
      intro hx
      rw [(moreData_false l1).mpr hx] at hmd
      exact absurd hmd (by simp)
  · rintro ⟨hok, hcf, l1, hl, hrest⟩
    unfold parsePps
    rw [hl, runL_bind, codec_ppsHead.parse_append nd hok]
    simp only [Out.bind]
    rw [runL_bind, runL_more]
    simp only [Out.bind]
    rw [runL_bind]
    unfold opt
    rcases hrest with ⟨h1, h2, h3, h4, h5⟩ | ⟨h1, ht, hm, hq, l2, l3, r, e1, e2, e3⟩
    · rw [(moreData_false l1).mpr h1, if_neg (by simp)]
      simp only [Prog.pure_eq, runL_ret, Out.bind]
      obtain ⟨s', h⟩ := runL_attempt_trailing nd st ⟨l1, c⟩
      refine ⟨s', ?_⟩
      rw [← h]
      congr 2
      funext _
      congr 1
      cases st
      simp only at h2 h3 h4 h5 hcf
      subst h2 h3 h4 h5 hcf
      rfl
    · have hmd : moreData l1 = true := by
        cases hx : moreData l1 with
        | true => rfl
        | false => exact absurd ((moreData_false l1).mp hx) h1
      rw [hmd, if_pos rfl, (ppsExt_iff nd cf l1 c _ _ _ _ ⟨r, c⟩).mpr ⟨ht, hm, hq, l2, l3, r, e1, e2, e3, rfl⟩]
      simp only [Out.bind]
      obtain ⟨s', h⟩ := runL_attempt_trailing nd st ⟨r, c⟩
      refine ⟨s', ?_⟩
      rw [← h]
      congr 2
      funext _
      congr 1
      cases st
      simp only at hcf
      subst hcf
      rfl

/-- C30, for every input: `ParsePps` returns `st` iff the RBSP starts with the coded form of `st`, scaling lists being
read well formed or not, and the optional end being read unless the data ends before it. -/
theorem C30_pps_exact (nd : Bool) {b : Buf} (hb : b.WF) (c cf : Nat) (st : Pps) :
    (∃ s', run nd (parsePps cf) ⟨b, c⟩ = .ok st s') ↔ PpsRead nd cf st b.rem := by
  have hL : (∃ s', run nd (parsePps cf) ⟨b, c⟩ = .ok st s') ↔ ∃ s1, runL nd (parsePps cf) ⟨b.rem, c⟩ = .ok st s1 := by
    constructor
    · rintro ⟨s', h⟩
      obtain ⟨s1, h1, _⟩ := (run_ok_iff nd _ hb c _ _).mp h
      exact ⟨s1, h1⟩
    · rintro ⟨s1, h⟩
      exact ⟨toSt b s1, (run_ok_iff nd _ hb c _ _).mpr ⟨s1, h, rfl⟩⟩
  rw [hL]
  exact pps_iff nd cf st b.rem c

/-! ### C43 -/

theorem subsetExt_iff (nd : Bool) (st : SubsetSps) (hok : st.seq_parameter_set_data.InRange) (l : List Bool) (c : Nat) (s2 : LSt) :
    runL nd (parseSubsetExt st.seq_parameter_set_data.profile_idc (getChromaArrayType st.seq_parameter_set_data)) ⟨l, c⟩ =
        .ok (st.seq_parameter_set_svc_extension, st.svc_vui_parameters_present_flag, st.bit_equal_to_one,
          st.mvc_vui_parameters_present_flag) s2 ↔ ∃ r, SubsetExtRead st l r ∧ s2 = ⟨r, c⟩ := by
  rw [getChromaArrayType_eq hok]
  unfold SubsetExtRead
  dsimp only
  generalize st.seq_parameter_set_data.profile_idc = p
  by_cases hs : svcProfile p
  · simp only [if_pos hs]
    rw [codec_subsetExtSvc hs nd l c _ s2]
    constructor
    · rintro ⟨⟨⟨e, h1, h2⟩, h3, h4⟩, r, h5, h6⟩
      simp only [Prod.mk.injEq] at h1 h3 h4 h5
      rw [h1] at h5
      exact ⟨r, ⟨e, h1, h2, h3, h4.1, h4.2, h5⟩, h6⟩
    · rintro ⟨r, ⟨e, h1, h2, h3, h4, h5, h6⟩, h7⟩
      refine ⟨⟨⟨e, h1, h2⟩, h3, by simp only [h4, h5]⟩, r, ?_, h7⟩
      rw [h6]
      simp only [h1, encOpt]
  · simp only [if_neg hs]
    unfold parseSubsetExt
    unfold svcProfile at hs
    rw [if_neg hs]
    by_cases hm : mvcProfile p
    · simp only [if_pos hm]
      unfold mvcProfile at hm
      rw [if_pos hm]
      constructor
      · intro h
        rw [runL_bind_ok] at h
        obtain ⟨b, s1, h1, h⟩ := h
        obtain ⟨hb, r1, rfl, rfl⟩ := ((Codec.u' (n := 1)) nd l c b s1).mp h1
        rw [runL_bind_ok] at h
        obtain ⟨f, s1, h1, h⟩ := h
        obtain ⟨hf, r2, rfl, rfl⟩ := ((Codec.u' (n := 1)) nd r1 c f s1).mp h1
        simp only [Prog.pure_eq, runL_ret, Out.ok.injEq, Prod.mk.injEq] at h
        obtain ⟨⟨g1, g2, g3, g4⟩, g5⟩ := h
        subst g3 g4
        exact ⟨r2, ⟨g1.symm, g2.symm, hb, hf, by simp only [List.append_assoc]⟩, g5.symm⟩
      · rintro ⟨r, ⟨h1, h2, h3, h4, h5⟩, h6⟩
        rw [h5, List.append_assoc, runL_bind, runL_flag nd h3]
        simp only [Out.bind]
        rw [runL_bind, runL_flag nd h4]
        simp only [Out.bind, Prog.pure_eq, runL_ret, h1, h2, h6]
    · simp only [if_neg hm]
      unfold mvcProfile at hm
      rw [if_neg hm]
      by_cases hd : mvcdProfile p
      · simp only [if_pos hd]
        unfold mvcdProfile at hd
        have key : ∀ q : Prog (Option SpsSvcExt × Nat × Nat × Nat), q = (do
            let b ← u 1
            pure (none, 0, b, 0)) → (runL nd q ⟨l, c⟩ = .ok (st.seq_parameter_set_svc_extension,
              st.svc_vui_parameters_present_flag, st.bit_equal_to_one, st.mvc_vui_parameters_present_flag) s2 ↔
              ∃ r, (st.seq_parameter_set_svc_extension = none ∧ st.svc_vui_parameters_present_flag = 0 ∧
                st.bit_equal_to_one < 2 ∧ st.mvc_vui_parameters_present_flag = 0 ∧
                l = encU 1 st.bit_equal_to_one ++ r) ∧ s2 = ⟨r, c⟩) := by
          rintro q rfl
          constructor
          · intro h
            rw [runL_bind_ok] at h
            obtain ⟨b, s1, h1, h⟩ := h
            obtain ⟨hb, r1, rfl, rfl⟩ := ((Codec.u' (n := 1)) nd l c b s1).mp h1
            simp only [Prog.pure_eq, runL_ret, Out.ok.injEq, Prod.mk.injEq] at h
            obtain ⟨⟨g1, g2, g3, g4⟩, g5⟩ := h
            subst g3
            exact ⟨r1, ⟨g1.symm, g2.symm, hb, g4.symm, rfl⟩, g5.symm⟩
          · rintro ⟨r, ⟨h1, h2, h3, h4, h5⟩, h6⟩
            rw [h5, runL_bind, runL_flag nd h3]
            simp only [Out.bind, Prog.pure_eq, runL_ret, h1, h2, h4, h6]
        apply key
        by_cases h1 : p = 138 ∨ p = 135
        · rw [if_pos h1]
        · rw [if_neg h1, if_pos (by omega)]
      · simp only [if_neg hd]
        unfold mvcdProfile at hd
        rw [if_neg (by omega), if_neg (by omega)]
        simp only [Prog.pure_eq, runL_ret, Out.ok.injEq, Prod.mk.injEq]
        constructor
        · rintro ⟨⟨g1, g2, g3, g4⟩, g5⟩
          exact ⟨l, ⟨g1.symm, g2.symm, g3.symm, g4.symm, rfl⟩, g5.symm⟩
        · rintro ⟨r, ⟨h1, h2, h3, h4, h5⟩, h6⟩
          exact ⟨⟨h1.symm, h2.symm, h3.symm, h4.symm⟩, by rw [h5, h6]⟩

theorem lastFlag (d : List Bool) : (d.map bitNat).getLastD 0 = if d.getLast? = some true then 1 else 0 := by
  rw [List.getLastD_eq_getLast?, List.getLast?_map]
  cases d.getLast? with
  | none => rfl
  | some v => cases v <;> rfl

theorem ext2_iff (nd : Bool) (l : List Bool) (c f v : Nat) :
    (∃ s', runL nd parseExt2 ⟨l, c⟩ = .ok (f, v) s') ↔ ∃ l3, l = encU 1 f ++ l3 ∧
      ((f = 0 ∧ v = 0) ∨ (f = 1 ∧ ∃ data r, l3 = data ++ r ∧
        ((∃ k, k ≤ 7 ∧ r = trailingBits k) ∨ (r = [] ∧ ¬ ∃ p k, k ≤ 7 ∧ l3 = p ++ trailingBits k)) ∧
        v = if data.getLast? = some true then 1 else 0)) := by
  constructor
  · rintro ⟨s', h⟩
    have h0 := h
    unfold parseExt2 at h0
    rw [runL_bind_ok] at h0
    obtain ⟨g, s1, h1, h2⟩ := h0
    obtain ⟨hg, l3, rfl, rfl⟩ := ((Codec.u' (n := 1)) nd l c g s1).mp h1
    obtain ⟨d, r, e1, e2, e3, e4⟩ := runL_parseExt2 nd hg l3 c
    rw [e2] at h
    simp only [Out.ok.injEq, Prod.mk.injEq] at h
    obtain ⟨⟨rfl, rfl⟩, -⟩ := h
    refine ⟨l3, rfl, ?_⟩
    by_cases hg1 : g = 1
    · refine Or.inr ⟨hg1, d, r, e1, ?_, lastFlag d⟩
      obtain ⟨h5, h6⟩ := e4 hg1
      by_cases hk : ∃ p k, k ≤ 7 ∧ l3 = p ++ trailingBits k
      · obtain ⟨p, k, hk, hp⟩ := hk
        have := h6 p k hk hp
        subst this
        rw [e1] at hp
        exact Or.inl ⟨k, hk, List.append_cancel_left hp⟩
      · rcases h5 with h5 | h5
        · exact Or.inr ⟨h5, hk⟩
        · exact Or.inl h5
    · refine Or.inl ⟨by omega, ?_⟩
      rw [e3 hg1]; rfl
  · rintro ⟨l3, rfl, h⟩
    have hf : f < 2 := by rcases h with h | h <;> omega
    obtain ⟨d, r, e1, e2, e3, e4⟩ := runL_parseExt2 nd hf l3 c
    refine ⟨⟨r, c⟩, ?_⟩
    rw [e2]
    congr 2
    rcases h with ⟨h1, h2⟩ | ⟨h1, data, r2, h2, h3, h4⟩
    · rw [e3 (by omega), h2]; rfl
    · rw [lastFlag, h4]
      obtain ⟨h5, h6⟩ := e4 h1
      have : d = data := by
        rcases h3 with ⟨k, hk, rfl⟩ | ⟨rfl, hno⟩
        · exact h6 data k hk h2
        · rcases h5 with rfl | ⟨k, hk, rfl⟩
          · rw [List.append_nil] at h2 e1
            rw [← e1, ← h2]
          · exact absurd ⟨d, k, hk, e1⟩ hno
      rw [this]

/-- C43, for every input: `ParseSubsetSps` returns `st` iff the RBSP starts with the library's coded form of `st`. -/
theorem C43_subset_exact (nd : Bool) {b : Buf} (hb : b.WF) (c : Nat) (st : SubsetSps) :
    (∃ s', run nd parseSubsetSps ⟨b, c⟩ = .ok st s') ↔ SubsetRead nd st b.rem := by
  have hL : (∃ s', run nd parseSubsetSps ⟨b, c⟩ = .ok st s') ↔ ∃ s1, runL nd parseSubsetSps ⟨b.rem, c⟩ = .ok st s1 := by
    constructor
    · rintro ⟨s', h⟩
      obtain ⟨s1, h1, _⟩ := (run_ok_iff nd _ hb c _ _).mp h
      exact ⟨s1, h1⟩
    · rintro ⟨s1, h⟩
      exact ⟨toSt b s1, (run_ok_iff nd _ hb c _ _).mpr ⟨s1, h, rfl⟩⟩
  rw [hL, runL_subsetSps]
  constructor
  · rintro ⟨s1, e, s2, h1, h2, rfl, h3⟩
    obtain ⟨l1, g1, rfl⟩ := (spsData_iff nd _ _ _ _).mp h1
    obtain ⟨l2, g2, rfl⟩ := (subsetExt_iff nd st ⟨g1.1, g1.2.1⟩ l1 c s2).mp h2
    obtain ⟨l3, g3, g4⟩ := (ext2_iff nd l2 c _ _).mp h3
    exact ⟨l1, l2, l3, g1, g2, g3, g4⟩
  · rintro ⟨l1, l2, l3, g1, g2, g3, g4⟩
    exact ⟨⟨l1, c⟩, _, ⟨l2, c⟩, (spsData_iff nd _ _ _ _).mpr ⟨l1, g1, rfl⟩,
      (subsetExt_iff nd st ⟨g1.1, g1.2.1⟩ l1 c _).mpr ⟨l2, g2, rfl⟩, rfl, (ext2_iff nd l2 c _ _).mpr ⟨l3, g3, g4⟩⟩

/-! ### Examples -/

/-- The SPS with the delta_scale 200 (see `C29_malformed_list_accepted`) is read as follows. -/
example (nd : Bool) : ∃ r, SpsRead nd badSpsState badSpsBits r := by
  have h := (C29_malformed_list_accepted nd).2
  obtain ⟨s', h⟩ := (sps_iff nd _ _).mp h
  obtain ⟨r, h1, _⟩ := (spsData_iff nd _ _ _ _).mp h
  exact ⟨r, h1⟩
example (nd : Bool) : SpsRead nd exSps.state (encSps exSps ++ trailingBits 3) (trailingBits 3) :=
  C26_well_formed_read nd exSps_ok _

/-- A delta_scale that cannot be read: 33 zero bits.  The two builds go on reading at different places. -/
theorem exUnreadable (nd : Bool) : ListRead nd 16 8 8 (encSE 3 ++ (List.replicate 33 false ++ [true, true]))
    (if nd then [true, true] else List.replicate 33 false ++ [true, true]) [11] [3] false := by
  refine .read (nextScale := 11) (by omega) (by omega) (by omega) (by decide) rfl ?_
  have h : (if nd then [true, true] else List.replicate 33 false ++ [true, true]) =
      afterUnreadable nd (List.replicate 33 false ++ [true, true]) := by cases nd <;> decide +kernel
  rw [h]
  refine .unreadable (by omega) ?_
  intro d r hd he
  have e := Codec.se.parse_append false (a := d) hd r 0
  rw [← he, runL_se] at e
  have hu : ueDec (List.replicate 33 false ++ [true, true]) = none := by decide +kernel
  rw [hu] at e
  simp at e

end H264.Props
