import Verif.SummaryStream
import Verif.Props.DpbScript

/-
C84: the summary of a stream that h264nal-conformance.py writes.
-/

namespace H264.Props

open H264 H264.Spec H264.Shown H264.Script
open H264.Summary (Row summaryArgs analyze Refers Refs)

/-! ### What slice headers refer to -/

theorem ctxOf_refers {σ : Store} {n : NalHeader} {h : ScalHeader} {x : ScalCtx} (r : ScalRefers σ n h x) :
    ∃ c, ctxOf σ n h.pic_parameter_set_id = some c := by
  obtain ⟨r1, ⟨ss, r2, _, r4⟩, r5, _⟩ := r
  unfold ctxOf
  rw [r1]
  simp only [Option.bind_eq_bind, Option.bind_some]
  rw [r2]
  simp only [Option.bind_some]
  rw [r4]
  simp only [Option.bind_some]
  rw [r5]
  exact ⟨_, rfl⟩

theorem sliceExt_refers {nd : Bool} {σ : Store} (hσ : σ.Valid) {n : NalHeader} (hn : Hdr n) {s s' : LSt} {x : SliceLayerExt}
    (h : runL nd (parseSliceLayerExt σ n) s = .ok x s') :
    (∀ h, x.slice_header_in_scalable_extension = some h → x.svc_extension_flag = 1 ∧ ∃ c, ctxOf σ n h.pic_parameter_set_id = some c) ∧
    (∀ h, x.slice_header = some h →
      (x.svc_extension_flag = 0 ∧ x.avc_3d_extension_flag = 0) ∧ ∃ c, setsOf σ h.pic_parameter_set_id = some c) := by
  have hf := hn.flag
  unfold parseSliceLayerExt at h
  dsimp only at h
  split at h
  · rename_i hf
    rw [runL_bind_ok] at h
    obtain ⟨y, s1, h1, h⟩ := h
    simp only [Prog.pure_eq, runL_ret, Out.ok.injEq] at h
    obtain ⟨rfl, _⟩ := h
    refine ⟨fun z hz => ⟨(by dsimp only; omega), ?_⟩, fun z hz => (by cases hz)⟩
    dsimp only at hz
    subst hz
    rw [runL_attempt] at h1
    cases hr : runL nd (parseScalHeader σ n) s with
    | bad e => rw [hr] at h1; simp at h1
    | null s => rw [hr] at h1; simp at h1
    | ok a s2 =>
      rw [hr] at h1
      simp only [Out.ok.injEq, Option.some.injEq] at h1
      obtain ⟨rfl, rfl⟩ := h1
      obtain ⟨⟨c, hc, _⟩, _⟩ := (codec_scalHeader hσ hn.ext nd s.rem s.cnt _ _).mp hr
      exact ctxOf_refers hc
  split at h
  · simp only [Prog.pure_eq, runL_ret, Out.ok.injEq] at h
    obtain ⟨rfl, _⟩ := h
    exact ⟨fun z hz => (by cases hz), fun z hz => (by cases hz)⟩
  · rename_i hf hg
    rw [runL_bind_ok] at h
    obtain ⟨y, s1, h1, h⟩ := h
    simp only [Prog.pure_eq, runL_ret, Out.ok.injEq] at h
    obtain ⟨rfl, _⟩ := h
    refine ⟨fun z hz => (by cases hz), fun z hz => ⟨⟨(by dsimp only; omega), (by dsimp only; omega)⟩, ?_⟩⟩
    dsimp only at hz
    obtain rfl := Option.some.inj hz
    obtain ⟨⟨p, sp, hp, hs, ok⟩, _⟩ := (codec_sliceHeader hσ.inRange _ _ nd s.rem s.cnt _ _).mp h1
    exact ⟨_, setsOf_some hp hs⟩

theorem payload_refers {nd : Bool} {σ σ' : Store} (hσ : σ.Valid) {n : NalUnit} (hh : Hdr n.nal_unit_header) {s s' : LSt}
    (h : runL nd (parsePayload σ n.nal_unit_header) s = .ok (n.nal_unit_payload, σ') s') : Refers σ n := by
  rw [runL_payload] at h
  have no : ∀ {p : Payload}, p.slice_layer_without_partitioning_rbsp = none → p.slice_layer_extension_rbsp = none → p = n.nal_unit_payload →
      Refers σ n := by
    rintro p h1 h2 rfl
    exact ⟨fun x hx => (by rw [h1] at hx; cases hx), fun x hx => (by rw [h2] at hx; cases hx)⟩
  split at h
  · cases hr : runL nd (parseSliceLayer σ n.nal_unit_header.nal_ref_idc n.nal_unit_header.nal_unit_type) s with
    | bad e => rw [hr] at h; simp at h
    | null s =>
      rw [hr] at h
      simp only [Out.ok.injEq, Prod.mk.injEq] at h
      exact no rfl rfl h.1.1
    | ok x s1 =>
      rw [hr] at h
      simp only [Out.ok.injEq, Prod.mk.injEq] at h
      unfold parseSliceLayer at hr
      rw [runL_bind_ok] at hr
      obtain ⟨y, s2, h1, hr⟩ := hr
      simp only [Prog.pure_eq, runL_ret, Out.ok.injEq] at hr
      obtain ⟨⟨p, sp, hp, hs, ok⟩, _⟩ := (codec_sliceHeader hσ.inRange _ _ nd s.rem s.cnt y s2).mp h1
      constructor
      · intro z hz w hw
        rw [← h.1.1] at hz
        obtain rfl := Option.some.inj hz
        rw [← hr.1] at hw
        obtain rfl := Option.some.inj hw
        exact ⟨_, setsOf_some hp hs⟩
      · intro z hz
        rw [← h.1.1] at hz
        cases hz
  split at h
  · cases hr : runL nd parseSps s <;> rw [hr] at h <;> simp only [Out.ok.injEq, Prod.mk.injEq, reduceCtorEq] at h
    all_goals exact no rfl rfl h.1.1
  split at h
  · cases hr : runL nd (parsePps 1) s <;> rw [hr] at h <;> simp only [Out.ok.injEq, Prod.mk.injEq, reduceCtorEq] at h
    all_goals exact no rfl rfl h.1.1
  split at h
  · cases hr : runL nd (parsePrefixPayload n.nal_unit_header) s <;> rw [hr] at h <;>
      simp only [Out.ok.injEq, Prod.mk.injEq, reduceCtorEq] at h
    all_goals exact no rfl rfl h.1.1
  split at h
  · cases hr : runL nd parseSubsetSps s <;> rw [hr] at h <;> simp only [Out.ok.injEq, Prod.mk.injEq, reduceCtorEq] at h
    all_goals exact no rfl rfl h.1.1
  split at h
  · cases hr : runL nd (parseSliceLayerExt σ n.nal_unit_header) s with
    | bad e => rw [hr] at h; simp at h
    | null s =>
      rw [hr] at h
      simp only [Out.ok.injEq, Prod.mk.injEq] at h
      exact no rfl rfl h.1.1
    | ok x s1 =>
      rw [hr] at h
      simp only [Out.ok.injEq, Prod.mk.injEq] at h
      constructor
      · intro z hz
        rw [← h.1.1] at hz
        cases hz
      · intro z hz
        rw [← h.1.1] at hz
        obtain rfl := Option.some.inj hz
        exact sliceExt_refers hσ hh hr
  · simp only [Out.ok.injEq, Prod.mk.injEq] at h
    exact no rfl rfl h.1.1

theorem inOrder_refs {nd : Bool} {opts : ParsingOptions} {us : List (Nat × List UInt8)} {σ σ' : Store} {c c' : Nat}
    {ns : List NalUnit} (hl : ∀ u ∈ us, u.2.length < 2 ^ 61)
    (h : InOrder (fun b => parseNalUnit nd opts b 0 b.length) us σ c ns σ' c') (hσ : σ.Valid) : Refs σ ns := by
  induction h with
  | nil σ c => exact .nil σ
  | skip h1 h2 ih => exact ih (fun u hu' => hl u (by simp [hu'])) hσ
  | @unit off b _ _ _ _ _ _ _ n ns h1 h2 ih =>
    have hb1 : b.length < 2 ^ 61 := hl (off, b) (by simp)
    have hv := Props.nalUnit_valid (data := b) hσ hb1 (by omega) h1
    have hd := parseNalUnit_draws hσ hb1 (by omega) h1 off b.length
    have hn := Props.parseNalUnit_val (by omega) hb1 h1
    rcases nalUnitL_cases hn with ⟨h, _⟩ | ⟨hd', s, p, s', he, h3, h4, _⟩
    · cases h
    have e := Option.some.inj he
    have e1 : n.nal_unit_header = hd' := by rw [e]
    have e2 : n.nal_unit_payload = p := by rw [e]
    rw [← e1] at h3
    rw [← e1, ← e2] at h4
    clear he e
    refine .cons (payload_refers hσ (n := { n with offset := off, length := b.length }) (Hdr.parsed h3).2 h4) ?_
    rw [← hd.2]
    exact ih (fun u hu' => hl u (by simp [hu'])) hv

/-! ### The row -/

theorem summary_text {nd : Bool} {data : List UInt8} (hl : data.length < 2 ^ 32) {bs : Bitstream} {σ' : Store} {c' : Nat}
    (h : parseBitstream nd (toolOptions summaryArgs) data {} 0 = .val (bs, σ', c')) :
    ∃ code, toolMain nd summaryArgs data = .val (unitsText (toolOptions summaryArgs) (bytesIn data) (-1) {} bs.nal_units, code) ∧
      Refs {} bs.nal_units := by
  obtain ⟨bs2, σ2, c2, text, code, h1, h2, h3⟩ := C58_annexB_partial (nd := nd) (a := summaryArgs) (by decide) rfl hl
  rw [h] at h1
  obtain ⟨rfl, rfl, rfl⟩ : bs = bs2 ∧ σ' = σ2 ∧ c' = c2 := by
    have := Res.val.inj h1
    simp only [Prod.mk.injEq] at this
    exact this
  refine ⟨code, ?_, ?_⟩
  · have hd := bitstream_draws Store.valid_empty (by omega) h
    have ht := hd.text (opts := toolOptions summaryArgs) (by intro h; cases h) (l := -1) (by unfold Lev; omega)
    rw [cat_units (l := -1) (text := text) h2 (fun n => (data.drop n.offset).take n.length)] at ht
    rw [h3]
    have := Res.val.inj ht
    rw [← this]
    rfl
  · exact inOrder_refs (slice_lt (by omega) _) ((C18_in_order nd _ data (by omega) {} 0 bs σ' c').mp h).2 Store.valid_empty

/-- The row for a stream. -/
def rowOf (ns : List NalUnit) (code : Int) (stderr : List Char) : Row where
  resolution := listed ((ns.filterMap spsIn).map resolutionName)
  profile := listed ((ns.filterMap spsIn).map fun x => (profileName x.getProfileType).toList)
  level := listed ((ns.filterMap spsIn).map Summary.levelShown)
  number_of_nalus := ns.length
  number_of_slice_nalus := ns.countP isSlice
  number_of_slice_header_nalus := ns.countP hasSliceHeader
  h264nal_status := Summary.runStatus code stderr
  slice_header_status := Summary.sliceHeaderStatus (ns.countP isSlice) (ns.countP hasSliceHeader)

theorem summary_row {nd : Bool} {data : List UInt8} (hl : data.length < 2 ^ 32) {bs : Bitstream} {σ' : Store} {c' : Nat}
    (h : parseBitstream nd (toolOptions summaryArgs) data {} 0 = .val (bs, σ', c')) (stderr : List Char) :
    ∃ out code, toolMain nd summaryArgs data = .val (out, code) ∧ analyze nd data stderr = .val (rowOf bs.nal_units code stderr) := by
  obtain ⟨code, h1, h2⟩ := summary_text hl h
  refine ⟨_, code, h1, ?_⟩
  unfold analyze
  rw [h1, Res.val_bind]
  dsimp only
  unfold Summary.analyzeText
  rw [Summary.sps_lines h2, Summary.units_count h2, Summary.slices_count h2, Summary.headers_count h2]
  simp only [Summary.join_listed]
  rfl

/-- C84: the script always ends with a row. -/
theorem C84_total (nd : Bool) {data : List UInt8} (hl : data.length < 2 ^ 32) (stderr : List Char) : ∃ row, analyze nd data stderr = .val row := by
  obtain ⟨bs, σ', c', _, _, h, _⟩ := C58_annexB_partial (nd := nd) (a := summaryArgs) (by decide) rfl hl
  obtain ⟨_, code, _, e⟩ := summary_row hl h stderr
  exact ⟨_, e⟩

/-- C84: the numbers are the number of NAL units returned, of those that should hold a slice header, and of the slice headers returned. -/
theorem C84_counts {nd : Bool} {data : List UInt8} (hl : data.length < 2 ^ 32) {bs : Bitstream} {σ' : Store} {c' : Nat}
    (h : parseBitstream nd (toolOptions summaryArgs) data {} 0 = .val (bs, σ', c')) {stderr : List Char} {row : Row}
    (hr : analyze nd data stderr = .val row) :
    row.number_of_nalus = bs.nal_units.length ∧ row.number_of_slice_nalus = bs.nal_units.countP isSlice ∧
    row.number_of_slice_header_nalus = bs.nal_units.countP hasSliceHeader := by
  obtain ⟨_, code, _, e⟩ := summary_row hl h stderr
  rw [hr] at e
  obtain rfl := Res.val.inj e
  exact ⟨rfl, rfl, rfl⟩

theorem header_slice {n : NalUnit} (h : hasSliceHeader n = true) : isSlice n = true := by
  unfold hasSliceHeader at h
  unfold isSlice
  rw [decide_eq_true_iff]
  split at h
  · rename_i h1
    simp only [List.mem_cons, List.not_mem_nil, or_false] at h1 ⊢
    omega
  · split at h
    · rename_i _ h2
      rw [h2]; decide
    · cases h

theorem countP_all {α : Type} {p q : α → Bool} (hq : ∀ x, q x = true → p x = true) (l : List α) :
    (l.countP q ≤ l.countP p) ∧ (l.countP q = l.countP p ↔ ∀ x ∈ l, p x = true → q x = true) := by
  induction l with
  | nil => simp
  | cons a l ih =>
    obtain ⟨h1, h2⟩ := ih
    rw [List.countP_cons, List.countP_cons]
    have ha := hq a
    cases hp : p a <;> cases hq' : q a
    · simp only [Bool.false_eq_true, if_false, Nat.add_zero, List.mem_cons, forall_eq_or_imp, hp, false_implies, true_and]
      exact ⟨h1, h2⟩
    · rw [hp] at ha; exact absurd (ha hq') (by decide)
    · simp only [Bool.false_eq_true, if_false, if_true, Nat.add_zero, List.mem_cons, forall_eq_or_imp, hp, hq', true_implies, false_and]
      exact ⟨by omega, ⟨fun h => by omega, fun h => by simp at h⟩⟩
    · simp only [if_true, List.mem_cons, forall_eq_or_imp, hp, hq', true_implies, true_and, Nat.add_right_cancel_iff]
      exact ⟨by omega, h2⟩

/-- C84: the last column is `0` exactly if the library returned a slice header for every NAL unit that should hold one. -/
theorem C84_headers {nd : Bool} {data : List UInt8} (hl : data.length < 2 ^ 32) {bs : Bitstream} {σ' : Store} {c' : Nat}
    (h : parseBitstream nd (toolOptions summaryArgs) data {} 0 = .val (bs, σ', c')) {stderr : List Char} {row : Row}
    (hr : analyze nd data stderr = .val row) :
    row.slice_header_status = "0".toList ↔ ∀ n ∈ bs.nal_units, isSlice n = true → hasSliceHeader n = true := by
  obtain ⟨_, code, _, e⟩ := summary_row hl h stderr
  rw [hr] at e
  obtain rfl := Res.val.inj e
  rw [← (countP_all (fun _ => header_slice) bs.nal_units).2]
  show Summary.sliceHeaderStatus _ _ = _ ↔ _
  unfold Summary.sliceHeaderStatus
  split
  · rename_i he
    simp [he]
  · rename_i he
    simp only [he, iff_false]
    intro hx
    simp at hx

/-- C84: the resolutions and the profiles are those of the SPSs and subset SPSs of the stream, each once, in the order in which they
first occur. -/
theorem C84_sps {nd : Bool} {data : List UInt8} (hl : data.length < 2 ^ 32) {bs : Bitstream} {σ' : Store} {c' : Nat}
    (h : parseBitstream nd (toolOptions summaryArgs) data {} 0 = .val (bs, σ', c')) {stderr : List Char} {row : Row}
    (hr : analyze nd data stderr = .val row) :
    row.resolution = listed ((bs.nal_units.filterMap spsIn).map resolutionName) ∧
    row.profile = listed ((bs.nal_units.filterMap spsIn).map fun x => (profileName x.getProfileType).toList) := by
  obtain ⟨_, code, _, e⟩ := summary_row hl h stderr
  rw [hr] at e
  obtain rfl := Res.val.inj e
  exact ⟨rfl, rfl⟩

/-- C84: so are the levels, if level 1b is not stated in an SPS of a profile that the script does not know.  Missing: those SPSs
(`C84_level_scalable`). -/
theorem C84_level_partial {nd : Bool} {data : List UInt8} (hl : data.length < 2 ^ 32) {bs : Bitstream} {σ' : Store} {c' : Nat}
    (h : parseBitstream nd (toolOptions summaryArgs) data {} 0 = .val (bs, σ', c'))
    (hp : ∀ n ∈ bs.nal_units, ∀ x, spsIn n = some x → x.profile_idc ∈ [66, 77, 88, 44, 100, 110, 122, 244] ∨
      (x.level_idc ≠ 9 ∧ ¬ (x.level_idc = 11 ∧ x.constraint_set3_flag = 1))) {stderr : List Char} {row : Row}
    (hr : analyze nd data stderr = .val row) : row.level = listed ((bs.nal_units.filterMap spsIn).map levelName) := by
  obtain ⟨_, code, _, e⟩ := summary_row hl h stderr
  rw [hr] at e
  obtain rfl := Res.val.inj e
  show listed _ = listed _
  congr 1
  refine List.map_congr_left fun x hx => ?_
  obtain ⟨n, hn, hs⟩ := List.mem_filterMap.mp hx
  have := hp n hn x hs
  unfold Summary.levelShown levelName
  simp only [List.mem_cons, List.not_mem_nil, or_false] at this ⊢
  by_cases h1 : x.profile_idc = 66 ∨ x.profile_idc = 77 ∨ x.profile_idc = 88
  · rw [if_neg (by omega), if_pos h1]
  · rw [if_neg h1]
    by_cases h2 : x.profile_idc = 44 ∨ x.profile_idc = 100 ∨ x.profile_idc = 110 ∨ x.profile_idc = 122 ∨ x.profile_idc = 244
    · rw [if_pos h2]
    · rw [if_neg h2, if_neg (by omega), if_neg (by omega)]

/-! ### What the tool reports -/

theorem lines_chars (t : List Char) : ∀ c ∈ t, c = '\n' ∨ ∃ l ∈ Summary.splitLines t, c ∈ l := by
  have hg : ∀ t : List Char, ∀ c ∈ t, c = '\n' ∨ ∃ l ∈ (Summary.linesGo t).1 :: (Summary.linesGo t).2, c ∈ l := by
    intro t
    induction t with
    | nil => intro c hc; cases hc
    | cons d t ih =>
      intro c hc
      rw [Summary.linesGo]
      rcases List.mem_cons.mp hc with rfl | hc
      · split
        · rename_i h; exact .inl h
        · exact .inr ⟨_, List.mem_cons_self, List.mem_cons_self⟩
      · rcases ih c hc with h | ⟨l, hl, hx⟩
        · exact .inl h
        · right
          split
          · exact ⟨l, List.mem_cons_of_mem _ hl, hx⟩
          · rcases List.mem_cons.mp hl with rfl | hl
            · exact ⟨_, List.mem_cons_self, List.mem_cons_of_mem _ hx⟩
            · exact ⟨l, List.mem_cons_of_mem _ hl, hx⟩
  intro c hc
  rcases hg t c hc with h | ⟨l, hl, hx⟩
  · exact .inl h
  · right
    refine ⟨l, ?_, hx⟩
    unfold Summary.splitLines
    dsimp only
    generalize (Summary.linesGo t).1 :: (Summary.linesGo t).2 = L at hl
    split
    · rename_i hlast
      have hL : L ≠ [] := by rintro rfl; cases hl
      have := List.dropLast_append_getLast hL
      rw [List.getLast?_eq_some_getLast hL] at hlast
      rw [Option.some.inj hlast] at this
      rw [← this] at hl
      rcases List.mem_append.mp hl with h | h
      · exact h
      · rw [List.mem_singleton.mp h] at hx
        cases hx
    · exact hl

theorem lines_sub (t : List Char) : ∀ l ∈ Summary.splitLines t, ∀ c ∈ l, c ∈ t := by
  have hg : ∀ t : List Char, ∀ l ∈ (Summary.linesGo t).1 :: (Summary.linesGo t).2, ∀ c ∈ l, c ∈ t := by
    intro t
    induction t with
    | nil => intro l hl c hc; simp [Summary.linesGo] at hl; rw [hl] at hc; cases hc
    | cons d t ih =>
      intro l hl c hc
      rw [Summary.linesGo] at hl
      split at hl
      · rcases List.mem_cons.mp hl with rfl | hl
        · cases hc
        · exact List.mem_cons_of_mem _ (ih l hl c hc)
      · rcases List.mem_cons.mp hl with rfl | hl
        · rcases List.mem_cons.mp hc with rfl | hc
          · exact List.mem_cons_self
          · exact List.mem_cons_of_mem _ (ih _ List.mem_cons_self c hc)
        · exact List.mem_cons_of_mem _ (ih l (List.mem_cons_of_mem _ hl) c hc)
  intro l hl
  unfold Summary.splitLines at hl
  dsimp only at hl
  split at hl
  · exact hg t l (List.dropLast_subset _ hl)
  · exact hg t l hl

theorem lines_nl (t : List Char) : ∀ l ∈ Summary.splitLines t, '\n' ∉ l := by
  have hg : ∀ t : List Char, ∀ l ∈ (Summary.linesGo t).1 :: (Summary.linesGo t).2, '\n' ∉ l := by
    intro t
    induction t with
    | nil => intro l hl; simp [Summary.linesGo] at hl; rw [hl]; simp
    | cons d t ih =>
      intro l hl
      rw [Summary.linesGo] at hl
      split at hl
      · rcases List.mem_cons.mp hl with rfl | hl
        · simp
        · exact ih l hl
      · rename_i hd
        rcases List.mem_cons.mp hl with rfl | hl
        · intro hc
          rcases List.mem_cons.mp hc with hc | hc
          · exact hd hc.symm
          · exact ih _ List.mem_cons_self hc
        · exact ih l (List.mem_cons_of_mem _ hl)
  intro l hl
  unfold Summary.splitLines at hl
  dsimp only at hl
  split at hl
  · exact hg t l (List.dropLast_subset _ hl)
  · exact hg t l hl

theorem mem_dropWhile {l : List Char} {c : Char} (h : c ∈ l) : c = ' ' ∨ c ∈ l.dropWhile (· == ' ') := by
  rw [← List.takeWhile_append_dropWhile (p := (· == ' ')) (l := l)] at h
  rcases List.mem_append.mp h with h | h
  · left
    have := List.all_eq_true.mp (List.all_takeWhile (p := (· == ' ')) (l := l)) c h
    simpa using this
  · exact .inr h

theorem mem_strip {l : List Char} {c : Char} (h : c ∈ l) : c = ' ' ∨ c ∈ Summary.strip l := by
  unfold Summary.strip
  rcases mem_dropWhile h with h | h
  · exact .inl h
  · rw [← List.mem_reverse] at h
    rcases mem_dropWhile h with h | h
    · exact .inl h
    · exact .inr (List.mem_reverse.mpr h)

theorem strip_sub {l : List Char} {c : Char} (h : c ∈ Summary.strip l) : c ∈ l := by
  unfold Summary.strip at h
  have := (List.dropWhile_sublist _).subset (List.mem_reverse.mp h)
  exact (List.dropWhile_sublist _).subset (List.mem_reverse.mp this)

theorem strip_blank {l : List Char} (h : ∀ c ∈ l, c = ' ') : Summary.strip l = [] := by
  unfold Summary.strip
  have : l.dropWhile (· == ' ') = [] := by
    induction l with
    | nil => rfl
    | cons c l ih =>
      rw [List.dropWhile_cons, if_pos (by simpa using h c List.mem_cons_self)]
      exact ih fun d hd => h d (List.mem_cons_of_mem _ hd)
  rw [this]
  rfl

theorem counts_keep {m : List Char} : ∀ (ms : List (List Char)) (acc : List (List Char × Nat)), m ∈ ms ∨ (∃ k, (m, k) ∈ acc) →
    ∃ k, (m, k) ∈ Summary.counts ms acc
  | [], acc, h => by
    rcases h with h | h
    · cases h
    · exact h
  | x :: ms, acc, h => by
    rw [Summary.counts]
    refine counts_keep ms _ ?_
    rcases h with h | ⟨k, hk⟩
    · rcases List.mem_cons.mp h with rfl | h
      · right
        split
        · rename_i ha
          rw [List.any_eq_true] at ha
          obtain ⟨⟨y, k⟩, hy, e⟩ := ha
          have e := eq_of_beq e
          exact ⟨k + 1, List.mem_map.mpr ⟨(y, k), hy, by dsimp only at e ⊢; rw [if_pos e]⟩⟩
        · exact ⟨1, by simp⟩
      · exact .inl h
    · right
      split
      · by_cases e : m = x
        · exact ⟨k + 1, List.mem_map.mpr ⟨(m, k), hk, by rw [if_pos e, e]⟩⟩
        · exact ⟨k, List.mem_map.mpr ⟨(m, k), hk, by rw [if_neg e]⟩⟩
      · exact ⟨k, by simp [hk]⟩

theorem join_zero {l : List (List Char)} (h : Summary.joinStatus l = "0".toList) : l = ["0".toList] := by
  cases l with
  | nil => cases h
  | cons p l =>
    cases l with
    | nil => rw [Summary.joinStatus] at h; rw [h]
    | cons q l =>
      rw [Summary.joinStatus] at h
      have := congrArg List.length h
      simp at this
      omega

theorem summarize_zero {stderr : List Char} (h : Summary.summarizeErrors stderr = "0".toList) :
    ∀ m ∈ (Summary.splitLines stderr).map Summary.strip, m = [] ∨ m = "0".toList := by
  intro m hm
  by_cases hne : m = []
  · exact .inl hne
  right
  have hm2 : m ∈ ((Summary.splitLines stderr).map Summary.strip).filter (· ≠ []) := List.mem_filter.mpr ⟨hm, by simpa using hne⟩
  unfold Summary.summarizeErrors at h
  dsimp only at h
  generalize ((Summary.splitLines stderr).map Summary.strip).filter (· ≠ []) = ms at h hm2
  rw [if_neg (by rintro rfl; cases hm2)] at h
  have h1 := join_zero h
  obtain ⟨k, hk⟩ := counts_keep ms [] (.inl hm2)
  have hx : (if k = 1 then m else m ++ (" (x" ++ toString k ++ ")").toList) ∈ ["0".toList] := by
    rw [← h1]
    exact List.mem_map.mpr ⟨(m, k), hk, rfl⟩
  rw [List.mem_singleton] at hx
  split at hx
  · exact hx
  · have := congrArg List.length hx
    simp at this
    omega

theorem runStatus_code {code : Int} (hc : code ≠ 0) (stderr : List Char) : Summary.runStatus code stderr ≠ "0".toList := by
  have hh : ∀ {t : List Char}, t.head? = some 'h' → ∀ s, t ≠ "0".toList ∧ t ++ s ≠ "0".toList := by
    intro t ht s
    cases t with
    | nil => cases ht
    | cons c t =>
      simp only [List.head?_cons, Option.some.injEq] at ht
      subst ht
      exact ⟨by simp, by simp⟩
  unfold Summary.runStatus
  dsimp only
  rw [if_pos hc]
  have h1 : (if code = 1 then "h264nal: invalid bitstream".toList else if code = 2 then "h264nal: unimplemented syntax".toList
      else ("h264nal exited with " ++ toString code).toList).head? = some 'h' := by
    split
    · rfl
    split
    · rfl
    · simp
  split
  · exact (hh h1 []).1
  · exact (hh h1 _).2

/-- C84: the status is `0` if the exit status of the tool is 0 and there is nothing on `stderr`; and if it is `0` then the exit status is 0 and there
is no character on `stderr` other than blanks, line feeds and zeros. -/
theorem C84_status {nd : Bool} {data : List UInt8} {out : List Char} {code : Int} (hm : toolMain nd summaryArgs data = .val (out, code))
    {stderr : List Char} {row : Row} (hr : analyze nd data stderr = .val row) :
    ((code = 0 ∧ ∀ c ∈ stderr, c = ' ' ∨ c = '\n') → row.h264nal_status = "0".toList) ∧
    (row.h264nal_status = "0".toList → code = 0 ∧ ∀ c ∈ stderr, c = ' ' ∨ c = '\n' ∨ c = '0') := by
  unfold analyze at hr
  rw [hm, Res.val_bind] at hr
  obtain rfl := Res.val.inj hr
  show (_ → Summary.runStatus code stderr = _) ∧ (Summary.runStatus code stderr = _ → _)
  constructor
  · rintro ⟨rfl, hb⟩
    have : ((Summary.splitLines stderr).map Summary.strip).filter (· ≠ []) = [] := by
      rw [List.filter_eq_nil_iff]
      intro m hm
      obtain ⟨l, hl, rfl⟩ := List.mem_map.mp hm
      rw [strip_blank fun c hc => (hb c (lines_sub stderr l hl c hc)).resolve_right fun e => lines_nl stderr l hl (e ▸ hc)]
      simp
    unfold Summary.runStatus Summary.summarizeErrors
    dsimp only
    rw [if_neg (by simp), if_pos this]
  · intro hs
    by_cases hc : code = 0
    · subst hc
      refine ⟨rfl, fun c hc => ?_⟩
      have hz : Summary.summarizeErrors stderr = "0".toList := by
        unfold Summary.runStatus at hs
        dsimp only at hs
        rw [if_neg (by simp)] at hs
        exact hs
      rcases lines_chars stderr c hc with h | ⟨l, hl, hx⟩
      · exact .inr (.inl h)
      · rcases mem_strip hx with h | h
        · exact .inl h
        · rcases summarize_zero hz _ (List.mem_map.mpr ⟨l, hl, rfl⟩) with e | e
          · rw [e] at h; cases h
          · rw [e] at h
            exact .inr (.inr (by simpa using h))
    · exact absurd hs (runStatus_code hc stderr)

theorem counts_eq : ∀ (ms : List (List Char)) (acc : List (List Char × Nat)),
    Summary.counts ms acc = acc.map (fun x => (x.1, x.2 + ms.count x.1)) ++
      (ms.filter fun m => !acc.any (·.1 == m)).eraseDups.map fun m => (m, ms.count m)
  | [], acc => by simp [Summary.counts]
  | m :: ms, acc => by
    rw [Summary.counts, counts_eq ms]
    by_cases h : acc.any (·.1 == m) = true
    · rw [if_pos h, List.filter_cons, if_neg (by rw [h]; decide)]
      have hk : ∀ w, (acc.map (fun x => if x.1 = m then (m, x.2 + 1) else x)).any (·.1 == w) = acc.any (·.1 == w) := by
        intro w
        rw [List.any_map]
        congr 1
        funext x
        simp only [Function.comp]
        split
        · rename_i e; rw [e]
        · rfl
      congr 1
      · rw [List.map_map]
        refine List.map_congr_left fun x _ => ?_
        simp only [Function.comp]
        by_cases e : x.1 = m
        · rw [if_pos e, e, List.count_cons_self]
          dsimp only
          rw [Nat.add_assoc, Nat.add_comm 1]
        · rw [if_neg e, List.count_cons_of_ne (fun h => e h.symm)]
      · simp only [hk]
        refine List.map_congr_left fun w hw => ?_
        have hw := List.mem_eraseDups.mp hw
        rw [List.mem_filter] at hw
        have hne : m ≠ w := by
          rintro rfl
          rw [h] at hw
          simp at hw
        rw [List.count_cons_of_ne hne]
    · have h' : acc.any (·.1 == m) = false := Bool.eq_false_iff.mpr h
      rw [if_neg h, List.filter_cons, if_pos (by rw [h']; decide), List.map_append, List.eraseDups_cons, List.map_cons, List.filter_filter,
        List.append_assoc]
      congr 1
      · refine List.map_congr_left fun x hx => ?_
        have hne : m ≠ x.1 := by
          rintro rfl
          rw [List.any_eq_false] at h'
          exact h' x hx (by simp)
        rw [List.count_cons_of_ne hne]
      · rw [List.map_cons, List.map_nil, List.singleton_append, List.count_cons_self]
        dsimp only
        rw [Nat.add_comm]
        congr 1
        have hf : (fun w => !(acc ++ [(m, 1)]).any (·.1 == w)) = fun w => (!(w == m)) && !acc.any (·.1 == w) := by
          funext w
          rw [List.any_append, Bool.not_or, Bool.and_comm]
          congr 1
          simp [Bool.beq_comm]
        rw [hf]
        refine List.map_congr_left fun w hw => ?_
        have hw := List.mem_eraseDups.mp hw
        rw [List.mem_filter] at hw
        have hne : m ≠ w := by
          rintro rfl
          simp at hw
        rw [List.count_cons_of_ne hne]

theorem join_status (l : List (List Char)) : Summary.joinStatus l = (l.intersperse "; ".toList).flatten := by
  induction l with
  | nil => rfl
  | cons a l ih =>
    cases l with
    | nil => simp [Summary.joinStatus]
    | cons b l => rw [Summary.joinStatus, ih]; simp

theorem strip_message {m : List Char} (h : IsMessage m) : Summary.strip m = m := by
  obtain ⟨_, _, h1, h2⟩ := h
  have hd : ∀ l : List Char, l.head? ≠ some ' ' → l.dropWhile (· == ' ') = l := by
    intro l hl
    cases l with
    | nil => rfl
    | cons c l => rw [List.dropWhile_cons, if_neg]; simpa using hl
  unfold Summary.strip
  rw [hd m h1, hd _ (by rw [List.head?_reverse]; exact h2), List.reverse_reverse]

/-- C84: the status names the reason of the exit status and each message once, in the order of first occurrence, with the number of times it
occurs. -/
theorem C84_messages {nd : Bool} {data : List UInt8} {out : List Char} {code : Int} (hm : toolMain nd summaryArgs data = .val (out, code))
    {ms : List (List Char)} (hms : ∀ m ∈ ms, IsMessage m) (hz : "0".toList ∉ ms) {row : Row}
    (hr : analyze nd data (ms.flatMap fun m => m ++ ['\n']) = .val row) : row.h264nal_status = reported code ms := by
  unfold analyze at hr
  rw [hm, Res.val_bind] at hr
  obtain rfl := Res.val.inj hr
  show Summary.runStatus code _ = _
  have h1 : ((Summary.splitLines (ms.flatMap fun m => m ++ ['\n'])).map Summary.strip).filter (· ≠ []) = ms := by
    rw [Summary.split_lines fun m h => (hms m h).2.1, List.map_congr_left (f := Summary.strip) (g := id) fun m h => strip_message (hms m h),
      List.map_id]
    exact List.filter_eq_self.mpr fun m h => by simpa using (hms m h).1
  have h2 : Summary.summarizeErrors (ms.flatMap fun m => m ++ ['\n']) =
      if ms = [] then "0".toList else ((ms.eraseDups.map (counted ms)).intersperse "; ".toList).flatten := by
    unfold Summary.summarizeErrors
    dsimp only
    rw [h1, join_status, counts_eq]
    simp only [List.map_nil, List.nil_append, List.any_nil, Bool.not_false, List.filter_true, List.map_map]
    rfl
  unfold Summary.runStatus reported exitReason
  dsimp only
  by_cases hc : code = 0
  · rw [if_neg (by simp [hc]), h2]
    by_cases he : ms = []
    · rw [if_pos he, if_pos ⟨hc, he⟩]
    · rw [if_neg he, if_neg (fun h => he h.2), if_pos hc, List.nil_append]
  · rw [if_pos hc, if_neg (c := code = 0 ∧ ms = []) (fun h => hc h.1), if_neg hc]
    have h3 : ∀ a : List Char, (if Summary.summarizeErrors (ms.flatMap fun m => m ++ ['\n']) = "0".toList then a
        else a ++ (';' :: ' ' :: Summary.summarizeErrors (ms.flatMap fun m => m ++ ['\n']))) =
        (([a] ++ ms.eraseDups.map (counted ms)).intersperse "; ".toList).flatten := by
      intro a
      cases ms with
      | nil => rw [h2, if_pos rfl, if_pos rfl]; simp
      | cons m l =>
        rw [if_neg, h2, if_neg (by simp), ← join_status, ← join_status, List.eraseDups_cons, List.map_cons, List.singleton_append]
        · rfl
        · intro h0
          have hm : m ∈ m :: l := List.mem_cons_self
          have := summarize_zero h0 m (by
            rw [← h1, List.mem_filter] at hm
            exact hm.1)
          rcases this with h | h
          · exact (hms m hm).1 h
          · exact hz (h ▸ hm)
    rw [h3]
    split
    · rfl
    · split <;> rfl

example : reported 1 ["a".toList, "b".toList, "a".toList] = "h264nal: invalid bitstream; a (x2); b".toList := by decide +kernel
example : ∀ m ∈ ["error: no such PPS".toList, "another".toList], IsMessage m := by
  intro m hm
  simp only [List.mem_cons, List.not_mem_nil, or_false] at hm
  rcases hm with rfl | rfl <;> exact ⟨by decide, by decide, by decide, by decide⟩

/-! ### Slices without a header -/

/-- What is returned for a slice has a slice header. -/
def Whole (n : NalUnit) : Prop :=
  n.nal_unit_header.nal_unit_type ∈ [1, 5] → n.nal_unit_payload = {} ∨
    ∃ x, n.nal_unit_payload.slice_layer_without_partitioning_rbsp = some x ∧ x.slice_header.isSome = true

theorem payload_whole {nd : Bool} {σ σ' : Store} {n : NalUnit} {s s' : LSt}
    (h : runL nd (parsePayload σ n.nal_unit_header) s = .ok (n.nal_unit_payload, σ') s') : Whole n := by
  intro ht
  rw [runL_payload, if_pos (by simpa using ht)] at h
  cases hr : runL nd (parseSliceLayer σ n.nal_unit_header.nal_ref_idc n.nal_unit_header.nal_unit_type) s with
  | bad e => rw [hr] at h; simp at h
  | null s =>
    rw [hr] at h
    simp only [Out.ok.injEq, Prod.mk.injEq] at h
    exact .inl h.1.1.symm
  | ok x s1 =>
    rw [hr] at h
    simp only [Out.ok.injEq, Prod.mk.injEq] at h
    unfold parseSliceLayer at hr
    rw [runL_bind_ok] at hr
    obtain ⟨y, s2, h1, hr⟩ := hr
    simp only [Prog.pure_eq, runL_ret, Out.ok.injEq] at hr
    right
    rw [← h.1.1]
    refine ⟨x, rfl, ?_⟩
    rw [← hr.1]
    rfl

theorem inOrder_whole {nd : Bool} {opts : ParsingOptions} {us : List (Nat × List UInt8)} {σ σ' : Store} {c c' : Nat}
    {ns : List NalUnit} (hl : ∀ u ∈ us, u.2.length < 2 ^ 61)
    (h : InOrder (fun b => parseNalUnit nd opts b 0 b.length) us σ c ns σ' c') : ∀ n ∈ ns, Whole n := by
  induction h with
  | nil σ c => intro n hn; cases hn
  | skip h1 h2 ih => exact ih (fun u hu' => hl u (by simp [hu']))
  | @unit off b _ _ _ _ _ _ _ n ns h1 h2 ih =>
    have hb1 : b.length < 2 ^ 61 := hl (off, b) (by simp)
    have hn := Props.parseNalUnit_val (by omega) hb1 h1
    rcases nalUnitL_cases hn with ⟨h, _⟩ | ⟨hd', s, p, s', he, h3, h4, _⟩
    · cases h
    have e := Option.some.inj he
    have e1 : n.nal_unit_header = hd' := by rw [e]
    have e2 : n.nal_unit_payload = p := by rw [e]
    rw [← e1, ← e2] at h4
    clear he e
    intro m hm
    rcases List.mem_cons.mp hm with rfl | hm
    · exact payload_whole (n := { n with offset := off, length := b.length }) h4
    · exact ih (fun u hu' => hl u (by simp [hu'])) m hm

/-- C84: if the exit status of the tool is 0, then only slices of enhancement layers or of other views can lack their slice header. -/
theorem C84_silent {nd : Bool} {data : List UInt8} (hl : data.length < 2 ^ 32) {bs : Bitstream} {σ' : Store} {c' : Nat}
    (h : parseBitstream nd (toolOptions summaryArgs) data {} 0 = .val (bs, σ', c')) {out : List Char}
    (hm : toolMain nd summaryArgs data = .val (out, 0)) :
    ∀ n ∈ bs.nal_units, n.nal_unit_header.nal_unit_type ∈ [1, 5] → hasSliceHeader n = true := by
  intro n hn ht
  have hw := inOrder_whole (slice_lt (by omega) _) ((C18_in_order nd _ data (by omega) {} 0 bs σ' c').mp h).2 n hn
  have hu := ((C57_exit_partial (by decide) hl h hm).2.2.mp rfl).2.2 n hn
  unfold hasSliceHeader
  rw [if_pos ht]
  rcases hw ht with hx | ⟨x, hx, hy⟩
  · exact absurd ⟨(by simp only [List.mem_cons, List.not_mem_nil, or_false] at ht; rcases ht with e | e <;> rw [e] <;> decide), hx⟩ hu
  · rw [hx]
    exact hy

/-! ### Examples and witnesses -/

/-- The row, from the NAL units. -/
def rowCheck (nd : Bool) (data : List UInt8) : Option (List NalUnit) :=
  match parseBitstream nd (toolOptions summaryArgs) data {} 0 with
  | .val (bs, _, _) => some bs.nal_units
  | _ => none

theorem of_row {nd : Bool} {data : List UInt8} {stderr : List Char} {code : Int} {row : Row} (hl : data.length < 2 ^ 32)
    (h : (rowCheck nd data).map (rowOf · code stderr) = some row) (hc : (toolMain nd summaryArgs data).passes (fun x => decide (x.2 = code)) = true) :
    analyze nd data stderr = .val row := by
  unfold rowCheck at h
  split at h
  · rename_i bs σ' c hp
    obtain ⟨out, code', h1, h2⟩ := summary_row hl hp stderr
    rw [h1] at hc
    have hc : code' = code := by simpa [Res.passes] using hc
    rw [h2, ← Option.some.inj h, hc]
  · cases h

/-- Two pictures. -/
example (nd : Bool) : analyze nd (dpbStream [dpbSpsNal 2, dpbPpsNal 0 2, dpbIdr 0, dpbPic 2 0 1 none]) [] =
    .val { resolution := "1920x1088".toList, profile := "High".toList, level := "4.0".toList, number_of_nalus := 4,
           number_of_slice_nalus := 2, number_of_slice_header_nalus := 2, h264nal_status := "0".toList, slice_header_status := "0".toList } := by
  cases nd <;> exact of_row (code := 0) (by decide +kernel) (by decide +kernel) (by decide +kernel)

/-- An SPS with another profile, level and constraint_set3_flag. -/
def sumSps (profile level flag : Nat) : List UInt8 :=
  escapeNal (exRbsp (exHdr 3 7) (encSps { dpbSps 1 with
    head := { profile_idc := profile, level_idc := level, constraint_set3_flag := flag }, lists := [] }) 0)

/-- Five SPSs, two of which state level 1b, and a slice that refers to a PPS that is not there. -/
example (nd : Bool) : analyze nd (dpbStream [dpbSpsNal 2, sumSps 100 9 0, sumSps 66 11 1, sumSps 66 11 0, sumSps 100 9 0, dpbIdr 0])
      "error: no such PPS\n\n  error: no such PPS\nerror: another\n".toList =
    .val { resolution := "1920x1088".toList, profile := "High;Baseline".toList, level := "4.0;1b;1.1".toList, number_of_nalus := 6,
           number_of_slice_nalus := 1, number_of_slice_header_nalus := 0,
           h264nal_status := "h264nal: invalid bitstream; error: no such PPS (x2); error: another".toList,
           slice_header_status := "unparsed slice headers: 0/1".toList } := by
  cases nd <;> exact of_row (code := 1) (by decide +kernel) (by decide +kernel) (by decide +kernel)

example (nd : Bool) : ∃ r, parseBitstream nd (toolOptions summaryArgs)
      (dpbStream [dpbSpsNal 2, sumSps 100 9 0, sumSps 66 11 1, sumSps 66 11 0, dpbIdr 0]) {} 0 = .val r ∧
    ((∀ x ∈ r.1.nal_units.filterMap spsIn, x.profile_idc ∈ [66, 77, 88, 44, 100, 110, 122, 244]) ∧
      (r.1.nal_units.filterMap spsIn).map levelName = ["4.0".toList, "1b".toList, "1b".toList, "1.1".toList]) := by
  cases nd <;> exact exists_dec (by decide +kernel)

/-- A Scalable High subset SPS of level 1b. -/
def sumSubset : List UInt8 :=
  escapeNal (exRbsp (exHdr 3 15) (encSubset { exSubset with
    sps := { exSubset.sps with head := { exSubset.sps.head with level_idc := 9 } } }) 0)

def rowSubset : Row :=
  { resolution := "1920x1080".toList, profile := "Unspecified".toList, level := "0.9".toList, number_of_nalus := 1,
    number_of_slice_nalus := 0, number_of_slice_header_nalus := 0, h264nal_status := "0".toList, slice_header_status := "0".toList }

/-- C84 fails for level 1b of the scalable profiles: the level is shown as 0.9. -/
theorem C84_level_scalable (nd : Bool) :
    (∃ r, parseBitstream nd (toolOptions summaryArgs) (dpbStream [sumSubset]) {} 0 = .val r ∧
      (r.1.nal_units.filterMap spsIn).map levelName = ["1b".toList]) ∧
    ∃ row, analyze nd (dpbStream [sumSubset]) [] = .val row ∧ row.level = "0.9".toList := by
  constructor
  · cases nd <;> exact exists_dec (by decide +kernel)
  · cases nd <;> exact ⟨rowSubset, of_row (code := 0) (by decide +kernel) (by decide +kernel) (by decide +kernel), rfl⟩

def rowOrphan : Row :=
  { resolution := [], profile := [], level := [], number_of_nalus := 1, number_of_slice_nalus := 1, number_of_slice_header_nalus := 0,
    h264nal_status := "0".toList, slice_header_status := "unparsed slice headers: 0/1".toList }

/-- A slice of an enhancement layer without its header: the tool reports nothing, and the last column shows it. -/
theorem C84_orphan (nd : Bool) : ∃ row, analyze nd exOrphan [] = .val row ∧ row.h264nal_status = "0".toList ∧
    row.slice_header_status = "unparsed slice headers: 0/1".toList := by
  cases nd <;> exact ⟨rowOrphan, of_row (code := 0) (by decide +kernel) (by decide +kernel) (by decide +kernel), rfl, rfl⟩

end H264.Props
