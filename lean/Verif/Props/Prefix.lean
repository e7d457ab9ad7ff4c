import Verif.NalLemmas
import Verif.Spec.Syntax8
import Verif.Props.Subset

/-
C52: the prefix NAL unit.
-/

namespace H264.Props
open H264.Spec Prog

theorem runL_u1_enc (nd : Bool) {v : Nat} (h : v < 2) (l : List Bool) (c : Nat) :
    runL nd (Prog.u 1) ⟨encU 1 v ++ l, c⟩ = .ok v ⟨l, c⟩ :=
  (Codec.u' (n := 1)).parse_append nd (a := v) h l c

theorem u1_ok {nd : Bool} {l : List Bool} {c v : Nat} {s : LSt} (h : runL nd (Prog.u 1) ⟨l, c⟩ = .ok v s) :
    v < 2 ∧ ∃ r, l = encU 1 v ++ r ∧ s = ⟨r, c⟩ := ((Codec.u' (n := 1)) nd l c v s).mp h

theorem prefixExtData_ok (nd : Bool) (l : List Bool) (c : Nat) :
    ∃ d r s', l = d ++ r ∧ runL nd parsePrefixExtData ⟨l, c⟩ = .ok ((d.map bitNat).getLastD 0) s' ∧
      (r = [] ∨ ∃ k, k ≤ 7 ∧ r = trailingBits k) ∧ ∀ p k, k ≤ 7 → l = p ++ trailingBits k → d = p := by
  obtain ⟨d, r, h1, h2, h3, h4⟩ := runL_ext2Loop nd l c
  obtain ⟨s', h5⟩ := runL_attempt_trailing nd ((d.map bitNat).getLastD 0) ⟨r, c⟩
  refine ⟨d, r, s', h1, ?_, h3, h4⟩
  unfold parsePrefixExtData
  rw [runL_bind, h2]
  exact h5

/-- Whatever the flag is, the data flags are read up to the trailing bits. -/
theorem prefixExt_complete (nd : Bool) {f : Nat} (hf : f < 2) {data : List Nat} (hd : ∀ v ∈ data, v < 2) {k : Nat} (hk : k ≤ 7)
    (c : Nat) : ∃ s', runL nd parsePrefixExt ⟨encU 1 f ++ (data.flatMap (encU 1) ++ trailingBits k), c⟩ =
      .ok (f, data.getLastD 0) s' := by
  unfold parsePrefixExt
  rw [runL_bind, runL_u1_enc nd hf]
  simp only [Out.bind]
  obtain ⟨d, r, s', e1, e2, e3, e4⟩ := prefixExtData_ok nd (data.flatMap (encU 1) ++ trailingBits k) c
  have hm := bitNat_map hd
  have hdd := e4 _ k hk rfl
  have hval : (d.map bitNat).getLastD 0 = data.getLastD 0 := by rw [hdd, ← hm.2, hm.1]
  rw [hval] at e2
  split
  · exact ⟨s', by rw [runL_bind, e2]; rfl⟩
  · rw [runL_bind, runL_more]
    simp only [Out.bind]
    cases hmd : moreData (data.flatMap (encU 1) ++ trailingBits k) with
    | true => rw [if_pos rfl]; exact ⟨s', by rw [runL_bind, e2]; rfl⟩
    | false =>
      rw [if_neg (by decide)]
      have : data = [] := by
        rcases (moreData_false _).mp hmd with h | ⟨j, _, h⟩
        · simp [trailingBits] at h
        · have := (trailingBits_unique (p := []) (j := j) (q := data.flatMap (encU 1)) (k := k) (by rw [h]; rfl)).1
          rw [← hm.2] at this
          simpa using this.symm
      subst this
      exact ⟨_, rfl⟩

theorem prefixExt_sound {nd : Bool} {l : List Bool} {c f d : Nat} {s' : LSt}
    (h : runL nd parsePrefixExt ⟨l, c⟩ = .ok (f, d) s') :
    f < 2 ∧ ∃ (data : List Nat) (r : List Bool), (∀ v ∈ data, v < 2) ∧ d = data.getLastD 0 ∧ l = encU 1 f ++ (data.flatMap (encU 1) ++ r) ∧
      (r = [] ∨ ∃ k, k ≤ 7 ∧ r = trailingBits k) := by
  unfold parsePrefixExt at h
  rw [runL_bind_ok] at h
  obtain ⟨g, s1, h1, h2⟩ := h
  obtain ⟨hg, r0, rfl, rfl⟩ := u1_ok h1
  obtain ⟨dd, r, s2, e1, e2, e3, e4⟩ := prefixExtData_ok nd r0 c
  have hdata : ∀ v ∈ dd.map bitNat, v < 2 := by
    intro v hv
    simp only [List.mem_map] at hv
    obtain ⟨b, _, rfl⟩ := hv
    cases b <;> decide
  have hflat : (dd.map bitNat).flatMap (encU 1) = dd := by
    rw [← (bitNat_map hdata).2]
    rw [List.map_map]
    conv => rhs; rw [← List.map_id dd]
    apply List.map_congr_left
    intro b _; cases b <;> decide
  have key : runL nd (do let d ← parsePrefixExtData; pure (g, d)) ⟨r0, c⟩ = .ok (f, d) s' →
      f = g ∧ ∃ (data : List Nat) (r : List Bool), (∀ v ∈ data, v < 2) ∧ d = data.getLastD 0 ∧ encU 1 g ++ r0 = encU 1 f ++ (data.flatMap (encU 1) ++ r) ∧
      (r = [] ∨ ∃ k, k ≤ 7 ∧ r = trailingBits k) := by
    intro h
    rw [runL_bind, e2] at h
    simp only [Out.bind, pure_eq, runL_ret, Out.ok.injEq, Prod.mk.injEq] at h
    obtain ⟨⟨rfl, rfl⟩, _⟩ := h
    exact ⟨rfl, _, r, hdata, rfl, by rw [hflat, ← e1], e3⟩
  split at h2
  · obtain ⟨rfl, h3⟩ := key h2; exact ⟨hg, h3⟩
  · rw [runL_bind, runL_more] at h2
    simp only [Out.bind] at h2
    split at h2
    · obtain ⟨rfl, h3⟩ := key h2; exact ⟨hg, h3⟩
    · rename_i hm
      simp only [pure_eq, runL_ret, Out.ok.injEq, Prod.mk.injEq] at h2
      obtain ⟨⟨rfl, rfl⟩, _⟩ := h2
      refine ⟨hg, [], r0, by simp, rfl, rfl, (moreData_false r0).mp (by simpa using hm)⟩

theorem runL_prefixRbsp_ok (nd : Bool) (ref use idr : Nat) (s s' : LSt) (st : PrefixRbsp) :
    runL nd (parsePrefixRbsp 1 ref use idr) s = .ok st s' ↔
      ∃ x, runL nd (parsePrefixSvc ref use idr) s = .ok x s' ∧
        st = { svc_extension_flag := 1, nal_ref_idc := ref, use_ref_base_pic_flag := use, idr_flag := idr,
               prefix_nal_unit_svc := some x } := by
  unfold parsePrefixRbsp Prog.opt
  rw [if_pos rfl]
  constructor
  · intro h
    rw [runL_bind_ok] at h
    obtain ⟨a, s1, h1, h2⟩ := h
    rw [runL_bind_ok] at h1
    obtain ⟨x, s2, h3, h4⟩ := h1
    simp only [pure_eq, runL_ret, Out.ok.injEq] at h2 h4
    obtain ⟨rfl, rfl⟩ := h4
    obtain ⟨rfl, rfl⟩ := h2
    exact ⟨x, h3, rfl⟩
  · rintro ⟨x, h, rfl⟩
    rw [runL_bind_ok]
    refine ⟨some x, s', ?_, rfl⟩
    rw [runL_bind_ok]
    exact ⟨x, s', h, rfl⟩

theorem prefix_complete (nd : Bool) {ref use idr : Nat} (hu : use < 2) {x : PrefixSyn} (ok : x.Ok ref use idr) {k : Nat} (hk : k ≤ 7)
    (h0 : ref = 0 → x.data = []) (c : Nat) :
    ∃ s', runL nd (parsePrefixRbsp 1 ref use idr) ⟨encPrefix ref x ++ trailingBits k, c⟩ = .ok (x.state ref use idr) s' := by
  simp only [runL_prefixRbsp_ok]
  have o1 := ok.store
  have o2 := ok.ext
  by_cases hr : ref = 0
  · subst hr
    rw [if_neg (by simp)] at o1 o2
    have hx := h0 rfl
    refine ⟨_, _, rfl, ?_⟩
    simp only [PrefixSyn.state, o1, o2, hx, List.getLastD]
  · rw [if_pos hr] at o1 o2
    obtain ⟨s', hs⟩ := prefixExt_complete nd o2 ok.data hk c
    have hl : encPrefix ref x ++ trailingBits k = encU 1 x.store_ref_base_pic_flag ++
        (encU 1 x.additional_prefix_nal_unit_extension_flag ++ (x.data.flatMap (encU 1) ++ trailingBits k)) := by
      simp only [encPrefix, encIf, if_pos (show ref ≠ 0 from hr), List.append_assoc]
    rw [hl]
    refine ⟨s', _, ?_, rfl⟩
    unfold parsePrefixSvc
    rw [if_pos hr, runL_bind, runL_u1_enc nd o1]
    simp only [Out.bind]
    rw [if_neg, runL_bind, hs]
    · rfl
    · rintro ⟨h1, h2⟩
      refine ok.no_marking hr ?_ h2
      omega

/-- With nal_ref_idc 0 nothing is read. -/
theorem prefix_empty (nd : Bool) (use idr : Nat) (s : LSt) :
    runL nd (parsePrefixRbsp 1 0 use idr) s = .ok
      { svc_extension_flag := 1, nal_ref_idc := 0, use_ref_base_pic_flag := use, idr_flag := idr,
        prefix_nal_unit_svc := some { nal_ref_idc := 0, use_ref_base_pic_flag := use, idr_flag := idr } } s := rfl

/-- C52: a prefix NAL unit of the SVC extension is decoded from its encoding.  Partial: dec_ref_base_pic_marking() is not
supported (`C52_marking_refused`), and for nal_ref_idc 0 the extension data is not read (`C52_data_missed`). -/
theorem C52_prefix_complete_partial (nd : Bool) {b : Buf} (hb : b.WF) (c : Nat) {ref use idr : Nat} (hu : use < 2) {x : PrefixSyn}
    (ok : x.Ok ref use idr) {k : Nat} (hk : k ≤ 7) (h : b.rem = encPrefix ref x ++ trailingBits k) (h0 : ref = 0 → x.data = []) :
    ∃ s', run nd (parsePrefixRbsp 1 ref use idr) ⟨b, c⟩ = .ok (x.state ref use idr) s' := by
  obtain ⟨s1, h1⟩ := prefix_complete nd hu ok hk h0 c
  exact ⟨toSt b s1, (run_ok_iff nd _ hb c _ _).mpr ⟨s1, by rw [h]; exact h1, rfl⟩⟩

/-- C52: conversely, what is returned for nal_ref_idc not 0 was decoded from an encoding that the data starts with and that ends
at the end of the data or at the trailing bits.  Partial: data flags are also accepted when the extension flag is 0. -/
theorem C52_prefix_sound_partial (nd : Bool) {b : Buf} (hb : b.WF) (c : Nat) {ref use idr : Nat} (hr : ref ≠ 0)
    {st : PrefixRbsp} {s' : St} (h : run nd (parsePrefixRbsp 1 ref use idr) ⟨b, c⟩ = .ok st s') :
    ∃ x r, st = x.state ref use idr ∧ b.rem = encPrefix ref x ++ r ∧ (r = [] ∨ ∃ k, k ≤ 7 ∧ r = trailingBits k) ∧
      (x.Ok ref use idr ∨ x.additional_prefix_nal_unit_extension_flag = 0 ∧ x.data ≠ []) := by
  obtain ⟨s1, hL, _⟩ := (run_ok_iff nd _ hb c _ _).mp h
  rw [runL_prefixRbsp_ok] at hL
  obtain ⟨y, h1, rfl⟩ := hL
  unfold parsePrefixSvc at h1
  rw [if_pos hr, runL_bind_ok] at h1
  obtain ⟨v, s2, h2, h3⟩ := h1
  obtain ⟨hv, r0, hrem, rfl⟩ := u1_ok h2
  split at h3
  · rw [runL_bind] at h3; simp [runL_unimpl, Out.bind] at h3
  · rename_i hnm
    rw [runL_bind_ok] at h3
    obtain ⟨⟨f, d⟩, s3, h4, h5⟩ := h3
    simp only [pure_eq, runL_ret, Out.ok.injEq] at h5
    obtain ⟨rfl, rfl⟩ := h5
    obtain ⟨hf, data, r, hd, rfl, rfl, hend⟩ := prefixExt_sound h4
    refine ⟨⟨v, f, data⟩, r, rfl, ?_, hend, ?_⟩
    · rw [hrem]
      simp only [encPrefix, encIf, if_pos (show ref ≠ 0 from hr), List.append_assoc]
    · by_cases hx : f = 0 ∧ data ≠ []
      · exact Or.inr hx
      · refine Or.inl ⟨by rw [if_pos hr]; exact hv, by rw [if_pos hr]; exact hf, hd, ?_, ?_⟩
        · intro _ hf0
          by_cases hdd : data = []
          · exact hdd
          · exact absurd ⟨hf0, hdd⟩ hx
        · intro _ h6 h7
          refine hnm ⟨?_, h7⟩
          simp only at h6
          omega

/-- C52: prefix NAL units with dec_ref_base_pic_marking() are refused. -/
theorem C52_marking_refused (nd : Bool) {b : Buf} (hb : b.WF) (c : Nat) {ref use store : Nat} (hr : ref ≠ 0) (hs : store < 2)
    (hm : use = 1 ∨ store = 1) {r : List Bool} (h : b.rem = encU 1 store ++ r) :
    ∃ s', run nd (parsePrefixRbsp 1 ref use 0) ⟨b, c⟩ = .null s' := by
  have key : ∃ s', runL nd (parsePrefixRbsp 1 ref use 0) ⟨b.rem, c⟩ = .null s' := by
    unfold parsePrefixRbsp Prog.opt parsePrefixSvc
    rw [if_pos rfl, if_pos hr, runL_bind, runL_bind, runL_bind, h, runL_u1_enc nd hs]
    simp only [Out.bind]
    rw [if_pos ⟨by omega, by trivial⟩, runL_bind, runL_unimpl]
    exact ⟨_, rfl⟩
  obtain ⟨s1, h1⟩ := key
  rw [run_eq nd _ hb c, h1]
  exact ⟨_, rfl⟩

/-- C52: for nal_ref_idc 0 the result does not depend on the data at all. -/
theorem C52_reference_idc_zero (nd : Bool) (b : Buf) (c use idr : Nat) :
    run nd (parsePrefixRbsp 1 0 use idr) ⟨b, c⟩ = .ok (PrefixSyn.state 0 use idr {}) ⟨b, c⟩ := by
  rfl

/-- C52 fails for extension data when nal_ref_idc is 0: the data flag 1 is coded, 0 is returned. -/
theorem C52_data_missed : ∃ (x : PrefixSyn), x.Ok 0 0 0 ∧ encPrefix 0 x ++ trailingBits 6 = allBits [0xC0] ∧
    ∀ nd c s' st, run nd (parsePrefixRbsp 1 0 0 0) ⟨Buf.start [0xC0], c⟩ = .ok st s' → st ≠ x.state 0 0 0 := by
  refine ⟨⟨0, 0, [1]⟩, ⟨by decide, by decide, by decide, by decide, by decide⟩, by decide, ?_⟩
  intro nd c s' st h
  rw [C52_reference_idc_zero] at h
  simp only [Out.ok.injEq] at h
  rw [← h.1]
  decide

/-- C52: no undefined behaviour, whatever the data. -/
theorem C52_prefix_safe (nd : Bool) {b : Buf} (hb : b.WF) (c svc ref use idr : Nat) (e : Bad) :
    run nd (parsePrefixRbsp svc ref use idr) ⟨b, c⟩ ≠ .bad e := (safe_prefixRbsp svc ref use idr).run nd hb c e

/-- A prefix NAL unit with the base picture stored, and extension data 1 0 1. -/
def exPrefix : PrefixSyn := ⟨1, 1, [1, 0, 1]⟩
theorem exPrefix_ok : exPrefix.Ok 2 1 1 := ⟨by decide, by decide, by decide, by decide, by decide⟩

example (nd : Bool) : ∃ s', run nd (parsePrefixRbsp 1 2 1 1) ⟨Buf.start [0xEC], 0⟩ = .ok (exPrefix.state 2 1 1) s' :=
  C52_prefix_complete_partial nd (Buf.start_wf (by decide)) 0 (by decide) exPrefix_ok (k := 2) (by decide) (by decide) (by decide)

end H264.Props
