import Verif.DpbSim
import Verif.Props.SplitScript

/-
C83: the table of reference pictures that h264nal-dpb_parse.py writes.
-/

namespace H264.Props

open H264 H264.Spec H264.Shown H264.Script
open H264.Dpb (Entry Row dpbArgs Known)

/-! ### The NAL units -/

theorem payload_known {nd : Bool} {σ σ' : Store} (hσ : σ.Valid) {n : NalUnit} {s s' : LSt}
    (h : runL nd (parsePayload σ n.nal_unit_header) s = .ok (n.nal_unit_payload, σ') s') (hu : ¬ Unparsed n) :
    (n.nal_unit_header.nal_unit_type = 1 ∨ n.nal_unit_header.nal_unit_type = 5 → ∃ s p h, Dpb.Sliced σ n s p h) ∧
    (n.nal_unit_header.nal_unit_type = 7 → ∃ s, n.nal_unit_payload.sps = some s) ∧
    (n.nal_unit_header.nal_unit_type = 8 → ∃ p, n.nal_unit_payload.pps = some p) := by
  have hp : n.nal_unit_header.nal_unit_type ∈ parsedTypes → n.nal_unit_payload ≠ {} := fun h1 h2 => hu ⟨h1, h2⟩
  rw [runL_payload] at h
  refine ⟨fun c => ?_, fun c => ?_, fun c => ?_⟩
  · rw [if_pos c] at h
    cases hr : runL nd (parseSliceLayer σ n.nal_unit_header.nal_ref_idc n.nal_unit_header.nal_unit_type) s with
    | bad e => rw [hr] at h; simp at h
    | null s =>
      rw [hr] at h
      simp only [Out.ok.injEq, Prod.mk.injEq] at h
      exact absurd h.1.1.symm (hp (by rcases c with c | c <;> rw [c] <;> decide))
    | ok x s1 =>
      rw [hr] at h
      simp only [Out.ok.injEq, Prod.mk.injEq] at h
      unfold parseSliceLayer at hr
      rw [runL_bind_ok] at hr
      obtain ⟨y, s2, h1, hr⟩ := hr
      simp only [Prog.pure_eq, runL_ret, Out.ok.injEq] at hr
      obtain ⟨⟨p, sp, hp, hs, ok⟩, _⟩ := (codec_sliceHeader hσ.inRange _ _ nd s.rem s.cnt y s2).mp h1
      refine ⟨sp, p, y, ⟨c, ⟨x, ?_, ?_⟩, setsOf_some hp hs, ok⟩⟩
      · rw [← h.1.1]
      · rw [← hr.1]
  · rw [if_neg (by omega), if_pos c] at h
    cases hr : runL nd parseSps s with
    | bad e => rw [hr] at h; simp at h
    | null s =>
      rw [hr] at h
      simp only [Out.ok.injEq, Prod.mk.injEq] at h
      exact absurd h.1.1.symm (hp (by rw [c]; decide))
    | ok x s1 =>
      rw [hr] at h
      simp only [Out.ok.injEq, Prod.mk.injEq] at h
      exact ⟨x, by rw [← h.1.1]⟩
  · rw [if_neg (by omega), if_neg (by omega), if_pos c] at h
    cases hr : runL nd (parsePps 1) s with
    | bad e => rw [hr] at h; simp at h
    | null s =>
      rw [hr] at h
      simp only [Out.ok.injEq, Prod.mk.injEq] at h
      exact absurd h.1.1.symm (hp (by rw [c]; decide))
    | ok x s1 =>
      rw [hr] at h
      simp only [Out.ok.injEq, Prod.mk.injEq] at h
      exact ⟨x, by rw [← h.1.1]⟩

theorem inOrder_known {nd : Bool} {opts : ParsingOptions} {us : List (Nat × List UInt8)} {σ σ' : Store} {c c' : Nat}
    {ns : List NalUnit} (hl : ∀ u ∈ us, u.2.length < 2 ^ 61)
    (h : InOrder (fun b => parseNalUnit nd opts b 0 b.length) us σ c ns σ' c') (hσ : σ.Valid) (hu : ∀ n ∈ ns, ¬ Unparsed n) : Known σ ns := by
  induction h with
  | nil σ c => exact .nil σ
  | skip h1 h2 ih => exact ih (fun u hu' => hl u (by simp [hu'])) hσ hu
  | @unit off b _ _ _ _ _ _ _ n ns h1 h2 ih =>
    have hb1 : b.length < 2 ^ 61 := hl (off, b) (by simp)
    have hv := Props.nalUnit_valid (data := b) hσ hb1 (by omega) h1
    have hd := parseNalUnit_draws hσ hb1 (by omega) h1 off b.length
    have hn := Props.parseNalUnit_val (by omega) hb1 h1
    rcases nalUnitL_cases hn with ⟨h, _⟩ | ⟨hd', s, p, s', he, h3, h4, _⟩
    · cases h
    have e := Option.some.inj he
    have e1 : n.nal_unit_header = hd' := by rw [e]
    have e2 : n.nal_unit_payload = p := by rw [e]
    rw [← e1, ← e2] at h4
    clear he e
    have hk := payload_known hσ (n := { n with offset := off, length := b.length }) h4 (hu _ (List.mem_cons_self ..))
    refine .cons hk.1 hk.2.1 hk.2.2 ?_
    rw [← hd.2]
    exact ih (fun u hu' => hl u (by simp [hu'])) hv (fun m hm => hu m (by simp [hm]))

theorem dpb_text {nd : Bool} {data : List UInt8} (hl : data.length < 2 ^ 32) :
    ∃ (bs : Bitstream) (σ' : Store) (c' : Nat) (code : Int),
      parseBitstream nd (toolOptions dpbArgs) data {} 0 = .val (bs, σ', c') ∧
      toolMain nd dpbArgs data = .val (unitsText (toolOptions dpbArgs) (bytesIn data) 0 {} bs.nal_units, code) := by
  obtain ⟨bs, σ', c', text, code, h1, h2, h3⟩ := C58_annexB_partial (nd := nd) (a := dpbArgs) (by decide) rfl hl
  refine ⟨bs, σ', c', code, h1, ?_⟩
  have hd := bitstream_draws Store.valid_empty (by omega) h1
  have ht := hd.text (opts := toolOptions dpbArgs) (by intro h; cases h) (l := 0) (by unfold Lev; omega)
  rw [cat_units (l := 0) (text := text) h2 (fun n => (data.drop n.offset).take n.length)] at ht
  rw [h3]
  have := Res.val.inj ht
  rw [← this]
  rfl

/-- What the script does. -/
theorem dpb_main {nd : Bool} {data : List UInt8} (hl : data.length < 2 ^ 32) {bs : Bitstream} {σ' : Store} {c' : Nat}
    (h : parseBitstream nd (toolOptions dpbArgs) data {} 0 = .val (bs, σ', c')) :
    ∃ (out : List Char) (code : Int) (o : Dpb.Outcome), toolMain nd dpbArgs data = .val (out, code) ∧ Dpb.main nd data = .val o ∧
      ((code ≠ 0 ∧ o = .failed) ∨
       (code = 0 ∧ lastSps bs.nal_units = none ∧ o = .error .keyError) ∨
       ∃ s, code = 0 ∧ lastSps bs.nal_units = some s ∧
        ((o = .error .loops ∧ Endless s.max_num_ref_frames [] (pictures none bs.nal_units)) ∨
         ∃ rows, o = .table rows ∧ Table s 0 0 0 [] (pictures none bs.nal_units) rows)) := by
  obtain ⟨bs2, σ2, c2, code, h1, h2⟩ := dpb_text (nd := nd) hl
  rw [h1] at h
  obtain ⟨rfl, rfl, rfl⟩ : bs2 = bs ∧ σ2 = σ' ∧ c2 = c' := by
    have := Res.val.inj h
    simp only [Prod.mk.injEq] at this
    exact this
  by_cases hc : code = 0
  · subst hc
    have hu := ((C57_exit_partial (by decide) hl h1 h2).2.2.mp rfl).2.2
    have hk : Known {} bs2.nal_units := by
      have ho := ((C18_in_order nd _ data (by omega) {} 0 bs2 σ2 c2).mp h1).2
      exact inOrder_known (slice_lt (by omega) _) ho Store.valid_empty hu
    obtain ⟨fs, e, hf⟩ := Dpb.parse_frames hk (bytesIn data)
    refine ⟨_, 0, (match Dpb.dpbWith (unitsText (toolOptions dpbArgs) (bytesIn data) 0 {} bs2.nal_units) with
      | .ok rows => .table rows
      | .error e => .error e), h2, ?_, .inr ?_⟩
    · unfold Dpb.main
      rw [h2, Res.val_bind]
      dsimp only
      rw [if_neg (by simp)]
      cases Dpb.dpbWith (unitsText (toolOptions dpbArgs) (bytesIn data) 0 {} bs2.nal_units) <;> rfl
    · unfold Dpb.dpbWith
      rw [e]
      cases hs : lastSps bs2.nal_units with
      | none => exact .inl ⟨rfl, rfl, rfl⟩
      | some s =>
        refine .inr ⟨s, rfl, rfl, ?_⟩
        show _ ∨ ∃ rows, (match Dpb.simulate (Dpb.spsOf s) 0 0 0 [] fs with | .ok rows => Dpb.Outcome.table rows | .error e => .error e) = _ ∧ _
        rcases Dpb.simulate_eq s hf 0 0 0 [] with ⟨rows, e, ht⟩ | ⟨e, ht⟩
        · right
          rw [e]
          exact ⟨rows, rfl, ht⟩
        · left
          refine ⟨?_, ht⟩
          show (match Dpb.simulate (Dpb.spsOf s) 0 0 0 [] fs with | .ok rows => Dpb.Outcome.table rows | .error e => .error e) = _
          rw [e]
  · refine ⟨_, code, .failed, h2, ?_, .inl ⟨hc, rfl⟩⟩
    unfold Dpb.main
    rw [h2, Res.val_bind]
    dsimp only
    rw [if_pos hc]
    rfl

/-- C83: how the script ends.  It gives up if the tool fails; it raises an exception if there is no SPS; it does not end if a picture is to be
entered while more long-term entries are held than the last SPS allows pictures; otherwise it writes a table. -/
theorem C83_outcome {nd : Bool} {data : List UInt8} (hl : data.length < 2 ^ 32) {bs : Bitstream} {σ' : Store} {c' : Nat}
    (h : parseBitstream nd (toolOptions dpbArgs) data {} 0 = .val (bs, σ', c')) :
    ∃ (out : List Char) (code : Int) (o : Dpb.Outcome), toolMain nd dpbArgs data = .val (out, code) ∧ Dpb.main nd data = .val o ∧
      (o = .failed ↔ code ≠ 0) ∧
      (o = .error .keyError ↔ code = 0 ∧ lastSps bs.nal_units = none) ∧
      (o = .error .loops ↔ code = 0 ∧ ∃ s, lastSps bs.nal_units = some s ∧
        Endless s.max_num_ref_frames [] (pictures none bs.nal_units)) ∧
      ((∃ rows, o = .table rows) ↔ code = 0 ∧ ∃ s, lastSps bs.nal_units = some s ∧
        ¬ Endless s.max_num_ref_frames [] (pictures none bs.nal_units)) := by
  obtain ⟨out, code, o, h1, h2, h3⟩ := dpb_main hl h
  refine ⟨out, code, o, h1, h2, ?_⟩
  rcases h3 with ⟨hc, rfl⟩ | ⟨hc, hs, rfl⟩ | ⟨s, hc, hs, ⟨rfl, he⟩ | ⟨rows, rfl, ht⟩⟩
  · exact ⟨by simp [hc], by simp [hc], by simp [hc], by simp [hc]⟩
  · exact ⟨by simp [hc], by simp [hc, hs], by simp [hs], by simp [hs]⟩
  · exact ⟨by simp [hc], by simp [hs], by simp [hc, hs, he], by simp [hs, he]⟩
  · have he := Dpb.table_ends ht
    exact ⟨by simp [hc], by simp [hs], by simp [hs, he], by simp [hc, hs, he]⟩

/-! ### The rows -/

theorem table_rows {s : SpsData} {i g j : Nat} {d : List Entry} {xs : List Picture} {rows : List Row} (h : Table s i g j d xs rows) :
    rows.length = xs.length ∧ ∀ k x, xs[k]? = some x → ∃ r g' j', rows[k]? = some r ∧
      RowOf s (i + k) g' j' x (if x.idr then [] else heldThrough s.max_num_ref_frames (xs.take k) d) r ∧
      g' = g + ((xs.take (k + 1)).drop (if i = 0 then 1 else 0)).countP (·.idr) ∧
      ∀ g0 : List Picture, g0.length = j →
        ((xs.take (k + 1)).foldl (fun g x => if x.idr then [x] else g ++ [x]) g0).length = j' + 1 := by
  induction h with
  | nil i g j d => exact ⟨rfl, fun k x hx => by simp at hx⟩
  | @idr i g j d x xs r rs h1 h2 h3 ih =>
    refine ⟨by rw [List.length_cons, ih.1, List.length_cons], fun k y hy => ?_⟩
    cases k with
    | zero =>
      simp only [List.getElem?_cons_zero, Option.some.injEq] at hy
      subst hy
      refine ⟨r, (if i = 0 then g else g + 1), 0, rfl, ?_, ?_, ?_⟩
      · rw [if_pos h1]; exact h2
      · by_cases hi : i = 0
        · simp [hi]
        · simp [hi, h1]
      · intro g0 _
        simp [h1]
    | succ k =>
      simp only [List.getElem?_cons_succ] at hy
      obtain ⟨r', g', j', e1, e2, e3, e4⟩ := ih.2 k y hy
      refine ⟨r', g', j', e1, ?_, ?_, ?_⟩
      · rw [show i + (k + 1) = i + 1 + k by omega, List.take_succ_cons]
        have : heldThrough s.max_num_ref_frames (x :: xs.take k) d = heldThrough s.max_num_ref_frames (xs.take k) (heldAfter s.max_num_ref_frames x []) := by
          show heldThrough _ (xs.take k) (heldAfter s.max_num_ref_frames x d) = _
          rw [Dpb.heldAfter_idr h1 d []]
        rw [this]
        exact e2
      · rw [e3, List.take_succ_cons, if_neg (Nat.succ_ne_zero i)]
        by_cases hi : i = 0
        · simp [hi]
        · simp [hi, h1]; omega
      · intro g0 _
        rw [List.take_succ_cons, List.foldl_cons, if_pos h1]
        exact e4 [x] rfl
  | @other i g j d x xs r rs h1 h2 h3 h4 ih =>
    refine ⟨by rw [List.length_cons, ih.1, List.length_cons], fun k y hy => ?_⟩
    have hf : ¬ x.idr = true := by rw [h1]; decide
    cases k with
    | zero =>
      simp only [List.getElem?_cons_zero, Option.some.injEq] at hy
      subst hy
      refine ⟨r, g, j, rfl, ?_, ?_, ?_⟩
      · rw [if_neg hf]; exact h3
      · by_cases hi : i = 0
        · simp [hi]
        · simp [hi, h1]
      · intro g0 hg
        simp [h1, hg]
    | succ k =>
      simp only [List.getElem?_cons_succ] at hy
      obtain ⟨r', g', j', e1, e2, e3, e4⟩ := ih.2 k y hy
      refine ⟨r', g', j', e1, ?_, ?_, ?_⟩
      · rw [show i + (k + 1) = i + 1 + k by omega, List.take_succ_cons]
        exact e2
      · rw [e3, List.take_succ_cons, if_neg (Nat.succ_ne_zero i)]
        by_cases hi : i = 0
        · simp [hi]
        · simp [hi, h1]
      · intro g0 hg
        rw [List.take_succ_cons, List.foldl_cons, if_neg hf]
        exact e4 (g0 ++ [x]) (by simp [hg])

/-- C83: the table has one line for every picture, in order.  It says about the picture what its first slice says, what was held when it came
and what it refers to, and what is held after it; the pictures are numbered within groups that begin at IDR pictures.  The limit on the number of
pictures held is that of the last SPS of the stream. -/
theorem C83_table {nd : Bool} {data : List UInt8} (hl : data.length < 2 ^ 32) {bs : Bitstream} {σ' : Store} {c' : Nat}
    (h : parseBitstream nd (toolOptions dpbArgs) data {} 0 = .val (bs, σ', c')) {rows : List Row}
    (hm : Dpb.main nd data = .val (.table rows)) :
    ∃ s, lastSps bs.nal_units = some s ∧ rows.length = (pictures none bs.nal_units).length ∧
      ∀ k x, (pictures none bs.nal_units)[k]? = some x → ∃ r, rows[k]? = some r ∧
        RowOf s k ((((pictures none bs.nal_units).take (k + 1)).drop 1).countP (·.idr))
          ((group ((pictures none bs.nal_units).take (k + 1))).length - 1) x
          (if x.idr then [] else heldThrough s.max_num_ref_frames ((pictures none bs.nal_units).take k) []) r := by
  obtain ⟨out, code, o, h1, h2, h3⟩ := dpb_main hl h
  rw [hm] at h2
  obtain rfl := Res.val.inj h2
  rcases h3 with ⟨hc, e⟩ | ⟨hc, hs, e⟩ | ⟨s, hc, hs, ⟨e, he⟩ | ⟨rows, e, ht⟩⟩
  · cases e
  · cases e
  · cases e
  cases e
  obtain ⟨t1, t2⟩ := table_rows ht
  refine ⟨s, hs, t1, fun k x hx => ?_⟩
  obtain ⟨r, g', j', e1, e2, e3, e4⟩ := t2 k x hx
  have e5 := e4 [] rfl
  refine ⟨r, e1, ?_⟩
  rw [show (group ((pictures none bs.nal_units).take (k + 1))).length - 1 = j' by unfold group; rw [e5]; rfl,
    show (((pictures none bs.nal_units).take (k + 1)).drop 1).countP (·.idr) = g' by rw [e3]; simp]
  rw [Nat.zero_add] at e2
  exact e2

/-! ### The sliding window -/

theorem dropShorts_all : ∀ (k : Nat) (d : List Entry), (∀ e ∈ d, e.ltr = none) → dropShorts k d = d.drop k
  | 0, d, _ => by cases d <;> rfl
  | k + 1, [], _ => rfl
  | k + 1, e :: t, h => by
    rw [dropShorts, if_pos (h e (by simp)), dropShorts_all k t (fun x hx => h x (by simp [hx]))]
    rfl

theorem held_window {M : Nat} (hM : 1 ≤ M) : ∀ (xs : List Picture) (g : List Picture), (∀ x ∈ xs, x.operations = none ∧ x.long_term = false) →
    heldThrough M xs ((((g.filter fun x => decide (0 < x.nal_ref_idc)).drop
        ((g.filter fun x => decide (0 < x.nal_ref_idc)).length - M))).map fun x => ⟨x.frame_num, none⟩) =
      ((((xs.foldl (fun g x => if x.idr then [x] else g ++ [x]) g).filter fun x => decide (0 < x.nal_ref_idc)).drop
        (((xs.foldl (fun g x => if x.idr then [x] else g ++ [x]) g).filter fun x => decide (0 < x.nal_ref_idc)).length - M))).map
        fun x => ⟨x.frame_num, none⟩
  | [], g, _ => rfl
  | x :: xs, g, h => by
    have hx := h x (by simp)
    have ih := held_window hM xs (if x.idr then [x] else g ++ [x]) (fun y hy => h y (by simp [hy]))
    rw [List.foldl_cons, ← ih]
    show heldThrough M xs (heldAfter M x _) = _
    congr 1
    unfold heldAfter
    cases hi : x.idr with
    | true =>
      rw [if_pos rfl, if_pos rfl, hx.2]
      by_cases hr : 0 < x.nal_ref_idc
      · simp [hr, Nat.sub_eq_zero_of_le hM]
      · simp [hr]
    | false =>
      simp only [Bool.false_eq_true, if_false]
      rw [hx.1]
      dsimp only
      rw [List.filter_append]
      by_cases hr : 0 < x.nal_ref_idc
      · rw [if_pos hr, show [x].filter (fun x => decide (0 < x.nal_ref_idc)) = [x] by simp [hr], dropShorts_all]
        · generalize g.filter (fun x => decide (0 < x.nal_ref_idc)) = l
          rw [← List.map_singleton (f := fun x : Picture => (⟨x.frame_num, none⟩ : Entry)), ← List.map_append, ← List.map_drop, List.length_map, List.length_drop, List.length_append,
            List.length_singleton]
          congr 1
          by_cases hle : l.length + 1 ≤ M
          · rw [show l.length - M = 0 by omega, show l.length + 1 - M = 0 by omega, show l.length - 0 + 1 - M = 0 by omega]
            rfl
          · rw [show l.length - (l.length - M) + 1 - M = 1 by omega, ← List.drop_append_of_le_length (l₂ := [x]) (Nat.sub_le l.length M),
              List.drop_drop]
            congr 1
            omega
        · intro e he
          rcases List.mem_append.mp he with he | he
          · obtain ⟨y, _, rfl⟩ := List.mem_map.mp he
            rfl
          · rw [List.mem_singleton.mp he]
      · rw [if_neg hr, show [x].filter (fun x => decide (0 < x.nal_ref_idc)) = [] by simp [hr], List.append_nil]

/-- C83: if no picture has memory management control operations and no IDR picture is a long-term reference, the entries held before and after
a picture are the last reference pictures since the last IDR picture, as many as the SPS allows, the newest last.  Missing: operations
and long-term IDR pictures, for which the entries are not always those of the standard (`C83_adaptive_not_entered`, `C83_operation_2`,
`C83_operation_1_wrapped`, `C83_operation_3_index`). -/
theorem C83_window_partial {nd : Bool} {data : List UInt8} (hl : data.length < 2 ^ 32) {bs : Bitstream} {σ' : Store} {c' : Nat}
    (h : parseBitstream nd (toolOptions dpbArgs) data {} 0 = .val (bs, σ', c'))
    (hn : ∀ x ∈ pictures none bs.nal_units, x.operations = none ∧ x.long_term = false)
    {s : SpsData} (hs : lastSps bs.nal_units = some s) (h1 : 1 ≤ s.max_num_ref_frames) {rows : List Row}
    (hm : Dpb.main nd data = .val (.table rows)) :
    ∀ k x, (pictures none bs.nal_units)[k]? = some x → ∃ r, rows[k]? = some r ∧
      r.dpb_before_decode = (if x.idr then [] else window s.max_num_ref_frames ((pictures none bs.nal_units).take k)) ∧
      r.dpb_after_mmco = window s.max_num_ref_frames ((pictures none bs.nal_units).take (k + 1)) := by
  obtain ⟨s', hs', hlen, hr⟩ := C83_table hl h hm
  rw [hs] at hs'
  cases hs'
  intro k x hx
  obtain ⟨r, hr1, hr2⟩ := hr k x hx
  have hw : ∀ m, heldThrough s.max_num_ref_frames ((pictures none bs.nal_units).take m) [] =
      window s.max_num_ref_frames ((pictures none bs.nal_units).take m) := by
    intro m
    have := held_window h1 ((pictures none bs.nal_units).take m) [] fun y hy => hn y (List.mem_of_mem_take hy)
    rw [List.filter_nil, List.drop_nil, List.map_nil] at this
    exact this
  refine ⟨r, hr1, ?_, ?_⟩
  · rw [hr2.before, hw]
  · rw [hr2.after, ← hw, List.take_add_one, hx, Option.toList_some]
    unfold heldThrough
    rw [List.foldl_append]
    show _ = heldAfter _ x _
    cases hi : x.idr with
    | true => exact Dpb.heldAfter_idr hi _ _
    | false => rfl

/-! ### References -/

theorem placed_perm (p : Entry → Bool) (l : List Entry) (i : Nat) : (placed p l i).1.Perm l := by
  unfold placed
  cases h : l.find? p with
  | none => exact .refl _
  | some e =>
    dsimp only
    have h1 : ((l.eraseP p).take i ++ e :: (l.eraseP p).drop i).Perm (e :: l.eraseP p) := by
      refine List.perm_middle.trans (.cons _ ?_)
      rw [List.take_append_drop]
    refine h1.trans ?_
    clear h1
    induction l with
    | nil => simp at h
    | cons a t ih =>
      by_cases hp : p a = true
      · rw [List.find?_cons_of_pos hp] at h
        cases h
        rw [List.eraseP_cons_of_pos hp]
      · rw [List.find?_cons_of_neg hp] at h
        rw [List.eraseP_cons_of_neg hp]
        exact (List.Perm.swap a e _).trans ((ih h).cons a)

theorem modified_perm (N : Nat) : ∀ (ops : List (Nat × Nat)) (pred i : Nat) (l : List Entry), (modified N pred i l ops).Perm l
  | [], _, _, _ => .refl _
  | (idc, v) :: ops, pred, i, l => by
    rw [modified]
    split
    · exact (modified_perm N ops _ _ _).trans (placed_perm _ _ _)
    · exact (modified_perm N ops _ _ _).trans (placed_perm _ _ _)

/-- Lists that are sorted by a key and have the same elements, in the same order, for every key are equal. -/
theorem sorted_unique {key : Entry → Nat} {le : Nat → Nat → Prop} (anti : ∀ a b, le a b → le b a → a = b) :
    ∀ {l l' : List Entry}, l.Pairwise (fun a b => le (key a) (key b)) → l'.Pairwise (fun a b => le (key a) (key b)) →
      (∀ n, l.filter (fun e => decide (key e = n)) = l'.filter fun e => decide (key e = n)) → l = l'
  | [], [], _, _, _ => rfl
  | [], b :: t', _, _, h => by have := h (key b); simp at this
  | a :: t, [], _, _, h => by have := h (key a); simp at this
  | a :: t, b :: t', h1, h2, h => by
    have ⟨p1, p2⟩ := List.pairwise_cons.mp h1
    have ⟨q1, q2⟩ := List.pairwise_cons.mp h2
    have e : key a = key b := by
      refine Classical.byContradiction fun hne => ?_
      have ha : a ∈ (b :: t').filter fun e => decide (key e = key a) := by rw [← h (key a)]; simp
      have hb : b ∈ (a :: t).filter fun e => decide (key e = key b) := by rw [h (key b)]; simp
      have ha' : a ∈ t' := by
        rcases List.mem_cons.mp (List.mem_filter.mp ha).1 with e | e
        · exact absurd (congrArg key e) hne
        · exact e
      have hb' : b ∈ t := by
        rcases List.mem_cons.mp (List.mem_filter.mp hb).1 with e | e
        · exact absurd (congrArg key e).symm hne
        · exact e
      exact hne (anti _ _ (p1 b hb') (q1 a ha'))
    have hab : a = b := by
      have := h (key a)
      rw [List.filter_cons_of_pos (by simp), List.filter_cons_of_pos (by simp [e])] at this
      exact (List.cons.inj this).1
    subst hab
    congr 1
    refine sorted_unique anti p2 q2 fun n => ?_
    have := h n
    by_cases hn : key a = n
    · rw [List.filter_cons_of_pos (by simp [hn]), List.filter_cons_of_pos (by simp [hn])] at this
      exact (List.cons.inj this).2
    · rw [List.filter_cons_of_neg (by simp [hn]), List.filter_cons_of_neg (by simp [hn])] at this
      exact this

/-- The order is determined by the entries held. -/
theorem ordered_unique {d l l' : List Entry} (h : Ordered d l) (h' : Ordered d l') : l = l' := by
  rw [h.parts, h'.parts]
  congr 1
  · exact sorted_unique (key := (·.frame_num)) (le := fun a b => b ≤ a) (fun a b => by omega) h.falling h'.falling
      fun n => (h.stable_short n).trans (h'.stable_short n).symm
  · refine sorted_unique (key := fun e => e.ltr.getD 0) (le := fun a b => a ≤ b) (fun a b => by omega) h.rising h'.rising fun n => ?_
    have e : ∀ l : List Entry, (longs l).filter (fun e => decide (e.ltr.getD 0 = n)) = (longs l).filter fun e => decide (e.ltr = some n) := by
      intro l
      refine List.filter_congr fun x hx => ?_
      have hx := (List.mem_filter.mp hx).2
      cases hl : x.ltr with
      | none => rw [hl] at hx; simp at hx
      | some i => simp
    rw [e, e]
    exact (h.stable_long n).trans (h'.stable_long n).symm

theorem ordered_perm {d l : List Entry} (h : Ordered d l) : l.Perm d := by
  rw [ordered_unique h (Dpb.built d)]
  unfold Dpb.buildRefPicList0
  refine ((Dpb.sort_perm _).append (Dpb.sort_perm _)).trans ?_
  clear h
  induction d with
  | nil => exact .refl _
  | cons e t ih =>
    by_cases hn : e.ltr = none
    · simp only [hn, List.filter_cons, decide_true, if_true, ne_eq, not_true_eq_false, decide_false, Bool.false_eq_true, if_false, List.cons_append]
      exact ih.cons e
    · simp only [hn, List.filter_cons, decide_false, Bool.false_eq_true, if_false, ne_eq, not_false_eq_true, decide_true, if_true]
      exact List.perm_middle.trans (ih.cons e)

/-- C83: what a picture refers to is held when it comes, is listed at most as often as it is held, and there are at most as many references as
the slice asks for.  Pictures other than P and B pictures refer to nothing. -/
theorem C83_references {nd : Bool} {data : List UInt8} (hl : data.length < 2 ^ 32) {bs : Bitstream} {σ' : Store} {c' : Nat}
    (h : parseBitstream nd (toolOptions dpbArgs) data {} 0 = .val (bs, σ', c')) {rows : List Row}
    (hm : Dpb.main nd data = .val (.table rows)) :
    ∀ (k : Nat) (x : Picture), (pictures none bs.nal_units)[k]? = some x → ∃ r : Row, rows[k]? = some r ∧
      (∃ l : List Entry, l.Perm r.dpb_before_decode ∧ r.refs_used <+: l) ∧ r.refs_used.length ≤ x.active ∧
      (¬ (x.slice_type = 0 ∨ x.slice_type = 1) → r.refs_used = []) ∧
      ((x.slice_type = 0 ∨ x.slice_type = 1) → r.refs_used.length = min x.active r.dpb_before_decode.length) := by
  obtain ⟨s, hs, hlen, hr⟩ := C83_table hl h hm
  intro k x hx
  obtain ⟨r, hr1, hr2⟩ := hr k x hx
  refine ⟨r, hr1, ?_⟩
  have h1 := hr2.refs
  rw [← hr2.before] at h1
  generalize r.refs_used = u at h1
  cases h1 with
  | none hn =>
    refine ⟨⟨_, .refl _, List.nil_prefix⟩, by simp, fun _ => rfl, fun ht => ?_⟩
    have : r.dpb_before_decode = [] := Classical.byContradiction fun hd => hn ⟨ht, hd⟩
    simp [this]
  | @some l ht hd ho =>
    have hp := (modified_perm (2 ^ (s.log2_max_frame_num_minus4 + 4)) (x.changes.getD []) x.frame_num 0 l).trans (ordered_perm ho)
    exact ⟨⟨_, hp, List.take_prefix _ _⟩, by rw [List.length_take]; omega, fun hn => absurd ht hn,
      fun _ => by rw [List.length_take, hp.length_eq]⟩

/-! ### The table is determined -/

theorem refers_unique {N : Nat} {x : Picture} {d l l' : List Entry} (h : Refers N x d l) (h' : Refers N x d l') : l = l' := by
  cases h with
  | none hn =>
    cases h' with
    | none => rfl
    | some h1 h2 _ => exact absurd ⟨h1, h2⟩ hn
  | some h1 h2 h3 =>
    cases h' with
    | none hn => exact absurd ⟨h1, h2⟩ hn
    | some _ _ h3' => rw [ordered_unique h3 h3']

theorem rowOf_unique {s : SpsData} {i g j : Nat} {x : Picture} {d : List Entry} {r r' : Row} (h : RowOf s i g j x d r)
    (h' : RowOf s i g j x d r') : r = r' := by
  obtain ⟨a1, a2, a3, a4, a5, a6, a7, a8, a9, a10, a11⟩ := h
  obtain ⟨b1, b2, b3, b4, b5, b6, b7, b8, b9, b10, b11⟩ := h'
  have e := refers_unique a9 b9
  cases r
  cases r'
  simp only at a1 a2 a3 a4 a5 a6 a7 a8 a10 a11 b1 b2 b3 b4 b5 b6 b7 b8 b10 b11 e
  rw [Row.mk.injEq]
  exact ⟨a1.trans b1.symm, a2.trans b2.symm, a3.trans b3.symm, a4.trans b4.symm, a5.trans b5.symm, a6.trans b6.symm, a7.trans b7.symm, e,
    a8.trans b8.symm, a10.trans b10.symm, a11.trans b11.symm⟩

theorem table_unique {s : SpsData} {i g j : Nat} {d : List Entry} {xs : List Picture} {rows : List Row} (h : Table s i g j d xs rows) :
    ∀ {rows' : List Row}, Table s i g j d xs rows' → rows = rows' := by
  induction h with
  | nil i g j d =>
    intro rows' h'
    cases h'
    rfl
  | idr h1 h2 h3 ih =>
    intro rows' h'
    cases h' with
    | idr k1 k2 k3 => rw [rowOf_unique h2 k2, ih k3]
    | other k1 => rw [h1] at k1; cases k1
  | other h1 h2 h3 h4 ih =>
    intro rows' h'
    cases h' with
    | idr k1 => rw [h1] at k1; cases k1
    | other k1 k2 k3 k4 => rw [rowOf_unique h3 k3, ih k4]

/-- A frame the script could have read for a picture. -/
def frameOf (x : Picture) : Dpb.Frame where
  nal_type := if x.idr then 5 else 1
  nal_ref_idc := x.nal_ref_idc
  slice_type := x.slice_type
  frame_num := x.frame_num
  num_ref_idx_l0_active := x.active
  long_term_reference_flag := if x.long_term then 1 else 0
  mmco := match x.operations with | none => [] | some ops => ops.map (·.memory_management_control_operation) ++ [0]
  diff_pic_nums := Dpb.diffsOf (x.operations.getD [])
  long_term_frame_idx := Dpb.idxsOf (x.operations.getD [])
  max_long_term_frame_idx_plus1 := Dpb.maxsOf (x.operations.getD [])
  rplm_l0 := if x.changes.isSome then 1 else 0
  rplm_mod_idc := (x.changes.getD []).map (·.1) ++ [3]
  rplm_abs_diff := ((x.changes.getD []).filter fun o => decide (o.1 ≤ 1)).map (·.2)
  rplm_lt_pic_num := ((x.changes.getD []).filter fun o => decide (o.1 = 2)).map (·.2)

theorem frameOf_reads {f : Dpb.Frame} {x : Picture} (h : Dpb.Reads f x) : Dpb.Reads (frameOf x) x := by
  refine ⟨?_, rfl, rfl, rfl, rfl, ?_, ?_, ?_⟩
  · unfold Dpb.Frame.isIdr frameOf
    cases x.idr <;> rfl
  · unfold frameOf
    dsimp only
    cases x.long_term <;> simp
  · have ho := h.operations
    unfold frameOf
    cases hx : x.operations with
    | none => rfl
    | some ops =>
      rw [hx] at ho
      exact ⟨ho.1, rfl, rfl, rfl, rfl⟩
  · have ho := h.changes
    unfold frameOf
    cases hx : x.changes with
    | none => rfl
    | some ops =>
      rw [hx] at ho
      exact ⟨by simp, ho.2.1, [], [], [], rfl, by simp, by simp⟩

/-- What the script makes of the NAL units, without a detour through text. -/
def dpbDirect (ns : List NalUnit) : Dpb.Outcome :=
  match lastSps ns with
  | none => .error .keyError
  | some s =>
    match Dpb.simulate (Dpb.spsOf s) 0 0 0 [] ((pictures none ns).map frameOf) with
    | .ok rows => .table rows
    | .error e => .error e

theorem dpb_direct {nd : Bool} {data : List UInt8} (hl : data.length < 2 ^ 32) {bs : Bitstream} {σ' : Store}
    (h : parseBitstream nd (toolOptions dpbArgs) data {} 0 = .val (bs, σ', 0)) (hn : bs.nal_units.length = (starts data).length)
    (hu : ∀ n ∈ bs.nal_units, ¬ Unparsed n) : Dpb.main nd data = .val (dpbDirect bs.nal_units) := by
  obtain ⟨out, code, o, h1, h2, h3⟩ := dpb_main hl h
  have hc : code = 0 := (C57_exit_partial (by decide) hl h h1).2.2.mpr ⟨rfl, hn, hu⟩
  have hk : Known {} bs.nal_units := by
    have ho := ((C18_in_order nd _ data (by omega) {} 0 bs σ' 0).mp h).2
    exact inOrder_known (slice_lt (by omega) _) ho Store.valid_empty hu
  obtain ⟨fs, e0, hf⟩ := Dpb.parse_frames hk (bytesIn data)
  clear e0
  have hf' : List.Forall₂ Dpb.Reads ((pictures none bs.nal_units).map frameOf) (pictures none bs.nal_units) := by
    generalize pictures none bs.nal_units = xs at hf
    clear hk h3
    induction hf with
    | nil => exact .nil
    | cons a _ ih => exact .cons (frameOf_reads a) ih
  rw [h2]
  unfold dpbDirect
  rcases h3 with ⟨hc', _⟩ | ⟨_, hs, rfl⟩ | ⟨s, _, hs, h3⟩
  · exact absurd hc hc'
  · rw [hs]
  · rw [hs]
    dsimp only
    rcases Dpb.simulate_eq s hf' 0 0 0 [] with ⟨rows, e, ht⟩ | ⟨e, he⟩
    · rw [e]
      rcases h3 with ⟨_, he⟩ | ⟨rows', rfl, ht'⟩
      · exact absurd he (Dpb.table_ends ht)
      · rw [table_unique ht ht']
    · rw [e]
      rcases h3 with ⟨rfl, _⟩ | ⟨rows', _, ht'⟩
      · rfl
      · exact absurd he (Dpb.table_ends ht')

/-! ### Examples -/

/-- Parameter sets and pictures. -/
def dpbSps (M : Nat) : SpsSyn :=
  { exStapSps with tail := { pic_order_cnt_type := 2, max_num_ref_frames := M, pic_width_in_mbs_minus1 := 119,
                             pic_height_in_map_units_minus1 := 67, frame_mbs_only_flag := 1, direct_8x8_inference_flag := 1 } }
def dpbPps (id n : Nat) : PpsSyn := { head := { pic_parameter_set_id := id, num_ref_idx_l0_default_active_minus1 := n }, ext := none }
def dpbSpsNal (M : Nat) : List UInt8 := escapeNal (exRbsp (exHdr 3 7) (encSps (dpbSps M)) 0)
def dpbPpsNal (id n : Nat) : List UInt8 := escapeNal (exRbsp (exHdr 3 8) (encPps (dpbPps id n)) 0)
def dpbIdr (long : Nat) : List UInt8 :=
  escapeNal (exRbsp (exHdr 3 5) (encSliceHeader (dpbSps 0).state ((dpbPps 0 0).state 1)
    { nal_ref_idc := 3, nal_unit_type := 5, slice_type := 2, ref_pic_list_modification := some { slice_type := 2 },
      dec_ref_pic_marking := some { IdrPicFlag := 1, long_term_reference_flag := long } }) 0)
def dpbPic (ref type frame_num : Nat) (ops : Option (List Mmco)) (changes : Option (List (Nat × Nat)) := none) : List UInt8 :=
  escapeNal (exRbsp (exHdr ref 1) (encSliceHeader (dpbSps 0).state ((dpbPps 0 0).state 1)
    { nal_ref_idc := ref, nal_unit_type := 1, slice_type := type, frame_num,
      ref_pic_list_modification := some (match changes with
        | none => { slice_type := type }
        | some c => { slice_type := type, ref_pic_list_modification_flag_l0 := 1, ops_l0 := c }),
      dec_ref_pic_marking := some (match ops with
        | none => {}
        | some o => { adaptive_ref_pic_marking_mode_flag := 1, ops := o }) }) 0)
def dpbStream (l : List (List UInt8)) : List UInt8 := annexB (l.map (true, ·))

instance (n : NalUnit) : Decidable (Unparsed n) := by unfold Unparsed; infer_instance

/-- The outcome for a stream on which the tool succeeds. -/
def dpbCheck (nd : Bool) (data : List UInt8) : Option Dpb.Outcome :=
  match parseBitstream nd (toolOptions dpbArgs) data {} 0 with
  | .val (bs, _, c) =>
    if c = 0 ∧ bs.nal_units.length = (starts data).length ∧ ∀ n ∈ bs.nal_units, ¬ Unparsed n then some (dpbDirect bs.nal_units) else none
  | _ => none

theorem of_check {nd : Bool} {data : List UInt8} {o : Dpb.Outcome} (hl : data.length < 2 ^ 32) (h : dpbCheck nd data = some o) :
    Dpb.main nd data = .val o := by
  unfold dpbCheck at h
  split at h
  · rename_i bs σ' c hp
    split at h
    · rename_i hc
      obtain ⟨rfl, h2, h3⟩ := hc
      cases h
      exact dpb_direct hl hp h2 h3
    · cases h
  · cases h

/-- The lines of a table: what a picture refers to, and what is held after it. -/
def linesOf : Dpb.Outcome → Option (List (List Entry × List Entry))
  | .table rows => some (rows.map fun r => (r.refs_used, r.dpb_after_mmco))
  | _ => none

theorem of_lines {nd : Bool} {data : List UInt8} {l : List (List Entry × List Entry)} (hl : data.length < 2 ^ 32)
    (h : (dpbCheck nd data).bind linesOf = some l) : ∃ rows, Dpb.main nd data = .val (.table rows) ∧
      rows.map (fun r => (r.refs_used, r.dpb_after_mmco)) = l := by
  cases hd : dpbCheck nd data with
  | none => rw [hd] at h; cases h
  | some o =>
    rw [hd] at h
    have := of_check hl hd
    cases o with
    | failed => cases h
    | error e => cases h
    | table rows =>
      refine ⟨rows, this, ?_⟩
      exact Option.some.inj h

/-- Two pictures may be held: the third picture pushes out the first. -/
example (nd : Bool) : ∃ r, parseBitstream nd (toolOptions dpbArgs)
      (dpbStream [dpbSpsNal 2, dpbPpsNal 0 2, dpbIdr 0, dpbPic 2 0 1 none, dpbPic 2 0 2 none, dpbPic 0 1 3 none]) {} 0 = .val r ∧
    (pictures none r.1.nal_units).length = 4 ∧ (lastSps r.1.nal_units).map (·.max_num_ref_frames) = some 2 ∧
    (∀ x ∈ pictures none r.1.nal_units, x.operations = none ∧ x.long_term = false) := by
  cases nd <;> exact exists_dec (by decide +kernel)

example (nd : Bool) : ∃ rows, Dpb.main nd (dpbStream [dpbSpsNal 2, dpbPpsNal 0 2, dpbIdr 0, dpbPic 2 0 1 none, dpbPic 2 0 2 none,
      dpbPic 0 1 3 none]) = .val (.table rows) ∧ rows.map (fun r => (r.refs_used, r.dpb_after_mmco)) =
    [([], [⟨0, none⟩]), ([⟨0, none⟩], [⟨0, none⟩, ⟨1, none⟩]), ([⟨1, none⟩, ⟨0, none⟩], [⟨1, none⟩, ⟨2, none⟩]),
      ([⟨2, none⟩, ⟨1, none⟩], [⟨1, none⟩, ⟨2, none⟩])] := by
  cases nd <;> exact of_lines (by decide +kernel) (by decide +kernel)

/-- All of a table. -/
example (nd : Bool) : Dpb.main nd (dpbStream [dpbSpsNal 2, dpbPpsNal 0 2, dpbIdr 1, dpbPic 2 0 1 none (some [(2, 0)])]) =
    .val (.table [
      { abs_frame := 0, gop := 0, gop_frame := 0, type := "IDR".toList, frame_num := 0, nal_ref_idc := 3, ref := true, refs_used := [],
        dpb_before_decode := [], mmco := "IDR:LTR[0]".toList, dpb_after_mmco := [⟨0, some 0⟩] },
      { abs_frame := 1, gop := 0, gop_frame := 1, type := "P".toList, frame_num := 1, nal_ref_idc := 2, ref := true,
        refs_used := [⟨0, some 0⟩], dpb_before_decode := [⟨0, some 0⟩], mmco := "sliding_window".toList,
        dpb_after_mmco := [⟨0, some 0⟩, ⟨1, none⟩] }]) := by
  cases nd <;> exact of_check (by decide +kernel) (by decide +kernel)

/-- The script does not end: the limit of the last SPS (1) is applied to pictures that were coded under another one (3). -/
theorem C83_endless (nd : Bool) :
    Dpb.main nd (dpbStream [dpbSpsNal 3, dpbPpsNal 0 2, dpbIdr 1,
      dpbPic 2 0 1 (some [{ memory_management_control_operation := 6, long_term_frame_idx := 1 }]), dpbPic 2 0 2 none,
      dpbSpsNal 1, dpbIdr 0]) = .val (.error .loops) ∧
    ∃ rows, Dpb.main nd (dpbStream [dpbSpsNal 3, dpbPpsNal 0 2, dpbIdr 1,
      dpbPic 2 0 1 (some [{ memory_management_control_operation := 6, long_term_frame_idx := 1 }]), dpbPic 2 0 2 none,
      dpbSpsNal 3, dpbIdr 0]) = .val (.table rows) ∧ rows.map (fun r => (r.refs_used, r.dpb_after_mmco)) =
      [([], [⟨0, some 0⟩]), ([⟨0, some 0⟩], [⟨0, some 0⟩, ⟨1, some 1⟩]),
        ([⟨0, some 0⟩, ⟨1, some 1⟩], [⟨0, some 0⟩, ⟨1, some 1⟩, ⟨2, none⟩]), ([], [⟨0, none⟩])] := by
  cases nd <;> exact ⟨of_check (by decide +kernel) (by decide +kernel), of_lines (by decide +kernel) (by decide +kernel)⟩

/-- Without an SPS the script raises an exception, although the tool succeeds. -/
theorem C83_no_sps (nd : Bool) : Dpb.main nd (dpbStream [[9, 0xf0]]) = .val (.error .keyError) := by
  cases nd <;> exact of_check (by decide +kernel) (by decide +kernel)

/-- A reference picture with operations is not entered as a short-term picture: the third picture refers to nothing. -/
theorem C83_adaptive_not_entered (nd : Bool) : ∃ rows, Dpb.main nd (dpbStream [dpbSpsNal 2, dpbPpsNal 0 2, dpbIdr 0,
      dpbPic 2 0 1 (some [{ memory_management_control_operation := 1, difference_of_pic_nums_minus1 := 0 }]), dpbPic 2 0 2 none]) =
      .val (.table rows) ∧ rows.map (fun r => (r.refs_used, r.dpb_after_mmco)) =
      [([], [⟨0, none⟩]), ([⟨0, none⟩], []), ([], [⟨2, none⟩])] := by
  cases nd <;> exact of_lines (by decide +kernel) (by decide +kernel)

/-- Operation 1 for the picture before frame_num starts again (MaxFrameNum is 16): the picture, of frame_num 15, is kept. -/
theorem C83_operation_1_wrapped (nd : Bool) : ∃ rows, Dpb.main nd (dpbStream [dpbSpsNal 3, dpbPpsNal 0 2, dpbIdr 0, dpbPic 2 0 15 none,
      dpbPic 2 0 0 (some [{ memory_management_control_operation := 1, difference_of_pic_nums_minus1 := 0 }])]) =
      .val (.table rows) ∧ rows.map (fun r => (r.refs_used, r.dpb_after_mmco)) =
      [([], [⟨0, none⟩]), ([⟨0, none⟩], [⟨0, none⟩, ⟨15, none⟩]), ([⟨15, none⟩, ⟨0, none⟩], [⟨0, none⟩, ⟨15, none⟩])] := by
  cases nd <;> exact of_lines (by decide +kernel) (by decide +kernel)

/-- Operation 2, which removes a long-term picture, does nothing. -/
theorem C83_operation_2 (nd : Bool) : ∃ rows, Dpb.main nd (dpbStream [dpbSpsNal 3, dpbPpsNal 0 2, dpbIdr 1,
      dpbPic 2 0 1 (some [{ memory_management_control_operation := 2, long_term_pic_num := 0 }])]) =
      .val (.table rows) ∧ rows.map (fun r => (r.refs_used, r.dpb_after_mmco)) =
      [([], [⟨0, some 0⟩]), ([⟨0, some 0⟩], [⟨0, some 0⟩])] := by
  cases nd <;> exact of_lines (by decide +kernel) (by decide +kernel)

/-- Operation 3 gives a picture an index that another one has: both keep it. -/
theorem C83_operation_3_index (nd : Bool) : ∃ rows, Dpb.main nd (dpbStream [dpbSpsNal 3, dpbPpsNal 0 2, dpbIdr 1, dpbPic 2 0 1 none,
      dpbPic 2 0 2 (some [{ memory_management_control_operation := 3, difference_of_pic_nums_minus1 := 0, long_term_frame_idx := 0 }])]) =
      .val (.table rows) ∧ rows.map (fun r => (r.refs_used, r.dpb_after_mmco)) =
      [([], [⟨0, some 0⟩]), ([⟨0, some 0⟩], [⟨0, some 0⟩, ⟨1, none⟩]), ([⟨1, none⟩, ⟨0, some 0⟩], [⟨0, some 0⟩, ⟨1, some 0⟩])] := by
  cases nd <;> exact of_lines (by decide +kernel) (by decide +kernel)

/-- The newest picture is not the first reference when frame_num has started again: 15 comes before 0. -/
theorem C83_order_wrapped (nd : Bool) : ∃ rows, Dpb.main nd (dpbStream [dpbSpsNal 2, dpbPpsNal 0 2, dpbIdr 0, dpbPic 2 0 15 none,
      dpbPic 2 0 0 none, dpbPic 2 0 1 none]) = .val (.table rows) ∧ rows.map (fun r => (r.refs_used, r.dpb_after_mmco)) =
      [([], [⟨0, none⟩]), ([⟨0, none⟩], [⟨0, none⟩, ⟨15, none⟩]), ([⟨15, none⟩, ⟨0, none⟩], [⟨15, none⟩, ⟨0, none⟩]),
        ([⟨15, none⟩, ⟨0, none⟩], [⟨0, none⟩, ⟨1, none⟩])] := by
  cases nd <;> exact of_lines (by decide +kernel) (by decide +kernel)

/-- A P picture of slice_type 5 (all slices are P slices) is given no references. -/
theorem C83_slice_type_5 (nd : Bool) : ∃ rows, Dpb.main nd (dpbStream [dpbSpsNal 2, dpbPpsNal 0 2, dpbIdr 0, dpbPic 2 5 1 none]) =
      .val (.table rows) ∧ rows.map (fun r => (r.refs_used, r.dpb_after_mmco)) = [([], [⟨0, none⟩]), ([], [⟨0, none⟩, ⟨1, none⟩])] := by
  cases nd <;> exact of_lines (by decide +kernel) (by decide +kernel)

/-- The number of references is taken from the last PPS (1), not from the one the slice refers to (3). -/
theorem C83_other_pps (nd : Bool) : ∃ rows, Dpb.main nd (dpbStream [dpbSpsNal 2, dpbPpsNal 0 2, dpbPpsNal 1 0, dpbIdr 0,
      dpbPic 2 0 1 none, dpbPic 2 0 2 none]) = .val (.table rows) ∧ rows.map (fun r => (r.refs_used, r.dpb_after_mmco)) =
      [([], [⟨0, none⟩]), ([⟨0, none⟩], [⟨0, none⟩, ⟨1, none⟩]), ([⟨1, none⟩], [⟨1, none⟩, ⟨2, none⟩])] := by
  cases nd <;> exact of_lines (by decide +kernel) (by decide +kernel)

end H264.Props
