import Verif.ToolLemmas
import Verif.Props.Counter
import Verif.Props.Dump

/-
Properties C57 (exit status), C58 (what the tool shows of each NAL unit) and C59 (the table of NAL units and frames) of the
command line tool.
-/

namespace H264.Props
open Prog Spec

/-! ### NAL units of a parsed bitstream -/

theorem parse_nonempty {nd : Bool} {opts : ParsingOptions} {b : List UInt8} (hb : b.length < 2 ^ 61) {σ σ' : Store} {c c' : Nat}
    {n : NalUnit} (h : parseNalUnit nd opts b 0 b.length σ c = .val (some n, σ', c')) : 0 < b.length := by
  rcases nalUnitL_cases (parseNalUnit_val (by omega) hb h) with ⟨h1, _⟩ | ⟨hd, s, p, s', h1, h2, _⟩
  · cases h1
  cases b with
  | cons x b => simp
  | nil =>
    exfalso
    obtain ⟨_, r, h3, _⟩ := (codec_nalHeader nd _ c hd s).mp h2
    have h4 : allBits (strip ((([] : List UInt8).drop 0).take ([] : List UInt8).length)) = [] := by
      have := strip_length ((([] : List UInt8).drop 0).take ([] : List UInt8).length)
      have h5 : strip ((([] : List UInt8).drop 0).take ([] : List UInt8).length) = [] :=
        List.eq_nil_of_length_eq_zero (by simpa using this)
      rw [h5]; rfl
    rw [h4] at h3
    unfold encNalHeader at h3
    have := congrArg List.length h3
    simp only [List.length_append, length_encU, List.length_nil] at this
    omega

theorem parse_csv {nd : Bool} {opts : ParsingOptions} {b : List UInt8} {off len : Nat} {σ σ' : Store} {c c' : Nat} {n : NalUnit}
    (o k : Nat) (hσ : σ.Valid) (hb : b.length < 2 ^ 61) (h : off + len ≤ b.length)
    (he : parseNalUnit nd opts b off len σ c = .val (some n, σ', c')) :
    CsvRow { n with offset := o, length := k } := by
  rcases nalUnitL_cases (parseNalUnit_val h hb he) with ⟨h1, _⟩ | ⟨hd, s, p, s', h1, h2, h3, _⟩
  · cases h1
  cases h1
  have ht : hd.nal_unit_type < 32 := ((codec_nalHeader nd _ c hd s).mp h2).1.nal_unit_type
  refine ⟨?_, ht⟩
  intro x hx
  dsimp only at hx
  rw [runL_payload] at h3
  by_cases h15 : hd.nal_unit_type = 1 ∨ hd.nal_unit_type = 5
  · rw [if_pos h15] at h3
    revert h3
    generalize hr : runL nd (parseSliceLayer σ hd.nal_ref_idc hd.nal_unit_type) s = r
    cases r with
    | bad e => intro h3; cases h3
    | null s1 => intro h3; cases h3; cases hx
    | ok a s1 =>
      intro h3
      cases h3
      cases hx
      unfold parseSliceLayer at hr
      rw [runL_bind_ok] at hr
      obtain ⟨y, s2, h4, hr⟩ := hr
      simp only [Prog.pure_eq, runL_ret, Out.ok.injEq] at hr
      obtain ⟨rfl, _⟩ := hr
      obtain ⟨⟨_, _, _, _, ok⟩, _⟩ := (codec_sliceHeader hσ.inRange _ _ nd s.rem s.cnt y s2).mp h4
      exact ⟨y, rfl, by have := ok.range.first_mb_in_slice; omega⟩
  · exfalso
    rw [if_neg h15] at h3
    revert h3
    repeat' split
    all_goals
      intro h3
      cases h3
      try cases hx

theorem inOrder_lengths {nd : Bool} {opts : ParsingOptions} {us : List (Nat × List UInt8)} {σ σ' : Store} {c c' : Nat}
    {ns : List NalUnit} (hu : ∀ u ∈ us, u.2.length < 2 ^ 61)
    (h : InOrder (fun b => parseNalUnit nd opts b 0 b.length) us σ c ns σ' c') :
    (∀ n ∈ ns, 0 < n.length ∧ ∃ u ∈ us, n.offset = u.1 ∧ n.length = u.2.length) ∧
      (ns.map (·.length)).sum ≤ (us.map (·.2.length)).sum ∧ ns.length ≤ (ns.map (·.length)).sum := by
  induction h with
  | nil σ c => simp
  | skip h1 h2 ih =>
    obtain ⟨a, b, d⟩ := ih (fun u hu' => hu u (by simp [hu']))
    refine ⟨fun n hn => ?_, ?_, d⟩
    · obtain ⟨p, u, hu', q⟩ := a n hn
      exact ⟨p, u, by simp [hu'], q⟩
    · simp only [List.map_cons, List.sum_cons]; omega
  | @unit off bytes rest _ _ _ _ _ _ n ns h1 h2 ih =>
    have hb : bytes.length < 2 ^ 61 := hu (off, bytes) (by simp)
    have hp := parse_nonempty hb h1
    obtain ⟨a, b, d⟩ := ih (fun u hu' => hu u (by simp [hu']))
    refine ⟨fun m hm => ?_, ?_, ?_⟩
    · rcases List.mem_cons.mp hm with rfl | hm
      · exact ⟨hp, (off, bytes), by simp, rfl, rfl⟩
      · obtain ⟨p, u, hu', q⟩ := a m hm
        exact ⟨p, u, by simp [hu'], q⟩
    · simp only [List.map_cons, List.sum_cons]; omega
    · simp only [List.map_cons, List.sum_cons, List.length_cons]; omega

theorem chained_sum {l : List UInt8} : ∀ {es : List NaluIndex}, Chained l es → (∀ e ∈ es, e.start_offset < e.payload_start_offset) →
    ∀ e ∈ es.head?, e.start_offset + (es.map (·.payload_size)).sum ≤ l.length
  | [], _, _, e, he => by simp at he
  | [x], h, hp, e, he => by
    simp only [List.head?_cons, Option.mem_def, Option.some.injEq] at he
    subst he
    have h1 : x.payload_start_offset + x.payload_size = l.length := h
    have := hp x (by simp)
    simp; omega
  | x :: y :: r, h, hp, e, he => by
    simp only [List.head?_cons, Option.mem_def, Option.some.injEq] at he
    subst he
    obtain ⟨h1, h2⟩ := h
    have := hp x (by simp)
    have ih := chained_sum h2 (fun z hz => hp z (by simp [hz])) y (by simp)
    rw [List.map_cons, List.sum_cons]
    omega

theorem entries_sum (l : List UInt8) : ((entries l (starts l)).map (·.payload_size)).sum ≤ l.length := by
  have h1 := entries_chained l _ (starts_sorted l) (fun p hp => mem_starts.mp hp)
  have h2 := chained_sum h1 (fun e he => (entries_inside l _ (starts_sorted l) (fun p hp => mem_starts.mp hp) e he).1)
  cases he : entries l (starts l) with
  | nil => simp
  | cons e es =>
    rw [he] at h2
    have := h2 e (by simp)
    omega

theorem sum_le_sum {α : Type} (f g : α → Nat) : ∀ l : List α, (∀ x ∈ l, f x ≤ g x) → (l.map f).sum ≤ (l.map g).sum
  | [], _ => Nat.le_refl _
  | x :: l, h => by
    have h1 := sum_le_sum f g l (fun y hy => h y (by simp [hy]))
    have h2 := h x (by simp)
    simp only [List.map_cons, List.sum_cons]
    omega

/-- The NAL units of an Annex B stream do not overlap: together they are not longer than the stream. -/
theorem units_sum {nd : Bool} {opts : ParsingOptions} {data : List UInt8} (hl : data.length < 2 ^ 61) {σ σ' : Store} {c c' : Nat}
    {bs : Bitstream} (h : parseBitstream nd opts data σ c = .val (bs, σ', c')) :
    (bs.nal_units.map (·.length)).sum ≤ data.length ∧ bs.nal_units.length ≤ data.length ∧
      ∀ n ∈ bs.nal_units, 0 < n.length ∧ n.offset + n.length ≤ data.length := by
  obtain ⟨a, b, d⟩ := inOrder_lengths (slice_lt hl _) ((C18_in_order nd opts data hl σ c bs σ' c').mp h).2
  have h1 := entries_sum data
  have h2 := sum_le_sum (fun e : NaluIndex => (sliceOf data e).length) (·.payload_size) (entries data (starts data))
    (fun e _ => by simp only [sliceOf, List.length_take]; omega)
  rw [List.map_map] at b
  have h3 : List.map ((fun u : Nat × List UInt8 => u.2.length) ∘ fun e => (e.payload_start_offset, sliceOf data e))
    (entries data (starts data)) = List.map (fun e => (sliceOf data e).length) (entries data (starts data)) := rfl
  rw [h3] at b
  refine ⟨by omega, by omega, fun n hn => ?_⟩
  obtain ⟨p, u, hu, q1, q2⟩ := a n hn
  obtain ⟨e, he, rfl⟩ := List.mem_map.mp hu
  have := (entries_inside data _ (starts_sorted data) (fun p hp => mem_starts.mp hp) e he).2.2
  dsimp only at q1 q2
  simp only [sliceOf, List.length_take, List.length_drop] at q2
  exact ⟨p, by omega⟩

theorem units_csv {nd : Bool} {opts : ParsingOptions} {data : List UInt8} (hl : data.length < 2 ^ 61) {σ σ' : Store} {c c' : Nat}
    {bs : Bitstream} (hσ : σ.Valid) (h : parseBitstream nd opts data σ c = .val (bs, σ', c')) : ∀ n ∈ bs.nal_units, CsvOk n :=
  fun n hn => ⟨bitstream_all (P := CsvRow)
    (fun _ _ _ _ _ _ _ _ o k hσ hb h he => parse_csv o k hσ hb h he) hσ hl h n hn, ((units_sum hl h).2.2 n hn).1⟩

/-! ### The exit status -/

theorem unparsed_fold {ns : List NalUnit} : ∀ m : Nat, m + ns.length < 2 ^ 64 →
    (∀ n ∈ ns, n.nal_unit_payload.isPayloadParsed n.nal_unit_header.nal_unit_type = false ↔ Unparsed n) →
    ∃ k, ns.foldl (fun m n => if n.nal_unit_payload.isPayloadParsed n.nal_unit_header.nal_unit_type = false then add64 m 1 else m) m = m + k ∧
      (0 < k ↔ ∃ n ∈ ns, Unparsed n) := by
  induction ns with
  | nil => exact fun m _ _ => ⟨0, rfl, by simp⟩
  | cons n ns ih =>
    intro m hm hn
    rw [List.length_cons] at hm
    rw [List.foldl_cons]
    by_cases hu : Unparsed n
    · rw [if_pos ((hn n (by simp)).mpr hu), add64_eq (by omega)]
      obtain ⟨k, h1, _⟩ := ih (m + 1) (by omega) (fun x hx => hn x (by simp [hx]))
      exact ⟨1 + k, by rw [h1]; omega, fun _ => ⟨n, by simp, hu⟩, fun _ => by omega⟩
    · rw [if_neg (fun h => hu ((hn n (by simp)).mp h))]
      obtain ⟨k, h1, h2⟩ := ih m (by omega) (fun x hx => hn x (by simp [hx]))
      refine ⟨k, h1, h2.trans ⟨fun ⟨x, h3, h4⟩ => ⟨x, by simp [h3], h4⟩, fun ⟨x, h3, h4⟩ => ?_⟩⟩
      rcases List.mem_cons.mp h3 with rfl | h3
      · exact absurd h4 hu
      · exact ⟨x, h3, h4⟩

theorem units_unparsed {nd : Bool} {opts : ParsingOptions} {data : List UInt8} (hl : data.length < 2 ^ 61) {σ σ' : Store} {c c' : Nat}
    {bs : Bitstream} (hσ : σ.Valid) (h : parseBitstream nd opts data σ c = .val (bs, σ', c')) :
    ∀ n ∈ bs.nal_units, n.nal_unit_payload.isPayloadParsed n.nal_unit_header.nal_unit_type = false ↔ Unparsed n :=
  bitstream_all (P := fun n => n.nal_unit_payload.isPayloadParsed n.nal_unit_header.nal_unit_type = false ↔ Unparsed n)
    (fun _ _ _ _ _ _ _ n _ _ _ hb h he => by
      have := C50_isPayloadParsed h hb he (n := n)
      exact this) hσ hl h

/-- The number of NAL units left unparsed. -/
theorem unparsed_annexB {nd : Bool} {a : ToolArgs} (ha : a.nalu_length_bytes < 0) {data : List UInt8} (hl : data.length < 2 ^ 61)
    {opts : ParsingOptions} {σ σ' : Store} {c c' : Nat} {bs : Bitstream} (hσ : σ.Valid)
    (h : parseBitstream nd opts data σ c = .val (bs, σ', c')) :
    ∃ m, unparsedUnits a data bs = .val m ∧
      (0 < m ↔ bs.nal_units.length < (starts data).length ∨ ∃ n ∈ bs.nal_units, Unparsed n) := by
  have h1 := (C56_sequence (slice_lt hl _) ((C18_in_order nd opts data hl σ c bs σ' c').mp h).2).1
  rw [List.length_map, entries_length] at h1
  have h2 := starts_length data
  obtain ⟨k, h3, h4⟩ := unparsed_fold ((starts data).length - bs.nal_units.length) (by omega) (units_unparsed hl hσ h)
  refine ⟨(starts data).length - bs.nal_units.length + k, ?_, ?_⟩
  · unfold unparsedUnits
    rw [if_pos ha, C13_find_exact data (by omega), Res.val_bind, Res.pure_eq, Res.val_bind, entries_length, sub64_eq h1 (by omega)]
    dsimp only
    rw [h3, Res.pure_eq]
  · rw [← h4]
    omega

theorem Store.valid_empty : ({} : Store).Valid := C36_reachable_valid .empty

theorem toolParse_annexB {nd : Bool} {a : ToolArgs} (ha : a.nalu_length_bytes < 0) (data : List UInt8) :
    toolParse nd a data = (parseBitstream nd (toolOptions a) data {} 0 >>= fun r => .val (r.1, r.2.2)) := by
  unfold toolParse
  rw [if_pos ha]
  rfl

/-- C57: the exit status of the tool on an Annex B stream of less than 4 GiB.  It is 2 if unimplemented syntax was counted.
Otherwise it is 1 if a NAL unit of the stream is missing from the result or has no payload although its type is one of those
that are parsed, and 0 if neither is the case.  Missing: status 0 does not say that the slice headers of enhancement layers were
parsed (`C57_orphan`), and with size fields dropped NAL units do not count (`C57_length_dropped`). -/
theorem C57_exit_partial {nd : Bool} {a : ToolArgs} (ha : a.nalu_length_bytes < 0) {data : List UInt8} (hl : data.length < 2 ^ 32)
    {σ' : Store} {c' : Nat} {bs : Bitstream} (h : parseBitstream nd (toolOptions a) data {} 0 = .val (bs, σ', c'))
    {out : List Char} {code : Int} (hm : toolMain nd a data = .val (out, code)) :
    (code = 2 ↔ 0 < c') ∧
    (code = 1 ↔ c' = 0 ∧ (bs.nal_units.length < (starts data).length ∨ ∃ n ∈ bs.nal_units, Unparsed n)) ∧
    (code = 0 ↔ c' = 0 ∧ bs.nal_units.length = (starts data).length ∧ ∀ n ∈ bs.nal_units, ¬ Unparsed n) := by
  have hc := C56_bitstream (by omega) h
  have h1 := (C56_sequence (slice_lt (by omega) _) ((C18_in_order nd _ data (by omega) {} 0 bs σ' c').mp h).2).1
  rw [List.length_map, entries_length] at h1
  obtain ⟨m, hu, hi⟩ := unparsed_annexB ha (by omega) Store.valid_empty h
  unfold toolMain at hm
  rw [toolParse_annexB ha, h, Res.val_bind, Res.val_bind] at hm
  dsimp only at hm
  cases hd : toolDump a data bs with
  | bad e => rw [hd, Res.bad_bind] at hm; cases hm
  | val t =>
    rw [hd, Res.val_bind, hu, Res.val_bind, Res.pure_eq] at hm
    simp only [Res.val.injEq, Prod.mk.injEq] at hm
    rw [← hm.2]
    unfold toolExit
    rw [Nat.mod_eq_of_lt (by omega)]
    have hn : (¬ (bs.nal_units.length < (starts data).length ∨ ∃ n ∈ bs.nal_units, Unparsed n)) ↔
        (bs.nal_units.length = (starts data).length ∧ ∀ n ∈ bs.nal_units, ¬ Unparsed n) := by
      constructor
      · intro h2
        exact ⟨by have := fun h3 => h2 (.inl h3); omega, fun n h3 h4 => h2 (.inr ⟨n, h3, h4⟩)⟩
      · rintro ⟨h2, h3⟩ (h4 | ⟨n, h4, h5⟩)
        · omega
        · exact h3 n h4 h5
    rw [← hn, ← hi]
    by_cases h0 : c' > 0
    · rw [if_pos h0]; omega
    · rw [if_neg h0]
      by_cases h2 : m > 0
      · rw [if_pos h2]; omega
      · rw [if_neg h2]; omega

/-- C57: exit status 2 means that a NAL unit is missing or lacks a part. -/
theorem C57_two {nd : Bool} {a : ToolArgs} (ha : a.nalu_length_bytes < 0) {data : List UInt8} (hl : data.length < 2 ^ 32)
    {σ' : Store} {c' : Nat} {bs : Bitstream} (h : parseBitstream nd (toolOptions a) data {} 0 = .val (bs, σ', c'))
    {out : List Char} (hm : toolMain nd a data = .val (out, 2)) :
    bs.nal_units.length < (starts data).length ∨ ∃ n ∈ bs.nal_units, Lacking n := by
  have hc := (C57_exit_partial ha hl h hm).1.mp rfl
  have h1 := (C56_sequence (slice_lt (by omega) _) ((C18_in_order nd _ data (by omega) {} 0 bs σ' c').mp h).2).1
  rw [List.length_map, entries_length] at h1
  by_cases h2 : bs.nal_units.length < (starts data).length
  · exact .inl h2
  · right
    refine Classical.byContradiction fun h3 => ?_
    have := C56_bitstream_complete (by omega) h (by omega) (fun n hn hk => h3 ⟨n, hn, hk⟩)
    omega

/-- A coded NAL unit of a type that is parsed has a payload. -/
theorem coded_parsed {σ σ' : Store} {h : NalHeader} {bits : List Bool} {p : Payload} (hu : UnitSyntax σ h bits p σ')
    (ht : h.nal_unit_type ∈ parsedTypes) : p ≠ {} := by
  cases hu with
  | other _ h1 => exact absurd ht h1
  | _ => intro h; cases h

theorem stream_parsed {σ σ' : Store} {us : List (Bool × List UInt8)} {hps : List (NalHeader × Payload)} (h : CodedStream σ us hps σ') :
    hps.length = us.length ∧ ∀ x ∈ hps, x.1.nal_unit_type ∈ parsedTypes → x.2 ≠ {} := by
  induction h with
  | nil => simp
  | cons hc _ ih =>
    obtain ⟨ho, bits, tail, rbsp, hu, he, hb, _⟩ := hc
    refine ⟨by simp [ih.1], fun x hx ht => ?_⟩
    rcases List.mem_cons.mp hx with rfl | hx
    · exact coded_parsed hu ht
    · exact ih.2 x hx ht

/-- C57: the exit status is 0 for every Annex B stream that an encoder makes from supported syntax. -/
theorem C57_coded {nd : Bool} {a : ToolArgs} (ha : a.nalu_length_bytes < 0) {us : List (Bool × List UInt8)}
    {hps : List (NalHeader × Payload)} {σ' : Store} (hs : CodedStream {} us hps σ') (hl : (annexB us).length < 2 ^ 32)
    {out : List Char} {code : Int} (hm : toolMain nd a (annexB us) = .val (out, code)) : code = 0 := by
  obtain ⟨bs, h1, h2, _⟩ := C51_stream nd (toolOptions a) Store.valid_empty hs hl 0
  obtain ⟨h3, h4⟩ := stream_parsed hs
  refine (C57_exit_partial ha hl h1 hm).2.2.mpr ⟨rfl, ?_, ?_⟩
  · have h5 := congrArg List.length (annexB_entries us (coded_all_carriable hs) (by omega))
    have h6 := congrArg List.length (annexBUnits_snd us 0)
    rw [List.length_map, entries_length] at h5
    rw [List.length_map, List.length_map] at h6
    have h7 := congrArg List.length h2
    rw [List.length_map] at h7
    omega
  · rintro n hn ⟨h5, h6⟩
    exact h4 (n.nal_unit_header, n.nal_unit_payload) (by rw [← h2]; exact List.mem_map_of_mem hn) h5 h6

/-! ### The dump -/

theorem cat_vals : ∀ {α : Type} (f : α → Dump) (g : α → Text) (l : List α), (∀ x ∈ l, f x = .val (g x)) →
    cat (l.map f) = .val (l.flatMap g)
  | _, _, _, [], _ => rfl
  | _, f, g, x :: l, h => by
    rw [List.map_cons, cat, h x (by simp), Res.val_bind, cat_vals f g l (fun y hy => h y (by simp [hy])), Res.val_bind]
    simp

theorem dumpAllUnit_eq {a : ToolArgs} {data : List UInt8} {n : NalUnit} {t : Text}
    (ht : n.fdump (if a.as_one_line then -1 else 0) (toolOptions a) = .val t) (ho : n.offset + n.length < 2 ^ 64) :
    dumpAllUnit a data n = .val (unitText a.add_contents ((data.drop n.offset).take n.length) t) := by
  unfold dumpAllUnit unitText whenD
  rw [ht]
  by_cases hc : a.add_contents = true
  · rw [if_pos hc, if_pos hc, contentsLoop_eq data _ _ ho _ _ (by omega) (by omega)]
    simp [cat]
  · rw [if_neg hc, if_neg hc]
    simp [cat]

theorem toolLevel (a : ToolArgs) : Level (if a.as_one_line then -1 else 0) := by
  cases a.as_one_line
  · exact .inr (by decide)
  · exact .inl rfl

/-- C58: with an Annex B stream in the mode that shows everything, the tool returns, and writes for every NAL unit its dump,
then, if asked for, the bytes it has in the stream, and a line break.  Missing: streams with size fields, where it fails
(`C58_length_partial`). -/
theorem C58_annexB_partial {nd : Bool} {a : ToolArgs} (ha : a.nalu_length_bytes < 0) (hm : a.dumpmode = .dump_all) {data : List UInt8}
    (hl : data.length < 2 ^ 32) :
    ∃ (bs : Bitstream) (σ' : Store) (c' : Nat) (text : NalUnit → List Char) (code : Int),
      parseBitstream nd (toolOptions a) data {} 0 = .val (bs, σ', c') ∧
      (∀ n ∈ bs.nal_units, n.fdump (if a.as_one_line then -1 else 0) (toolOptions a) = .val (text n)) ∧
      toolMain nd a data = .val
        (bs.nal_units.flatMap (fun n => unitText a.add_contents ((data.drop n.offset).take n.length) (text n)), code) := by
  obtain ⟨⟨bs, σ', c'⟩, h⟩ := C37_bitstream_partial .empty nd (toolOptions a) (data := data) (by omega)
    (fun _ e he => by
      have := (entries_inside data _ (starts_sorted data) (fun p hp => mem_starts.mp hp) e he).2.2
      omega) 0
  have hd := C46_units .empty (by omega) h (toolLevel a)
  obtain ⟨m, hu, _⟩ := unparsed_annexB ha (by omega) Store.valid_empty h
  refine ⟨bs, σ', c', fun n => match n.fdump (if a.as_one_line then -1 else 0) (toolOptions a) with | .val t => t | .bad _ => [],
    toolExit m c', h, ?_, ?_⟩
  · intro n hn
    obtain ⟨t, ht, _⟩ := hd n hn
    simp only [ht]
  · unfold toolMain
    rw [toolParse_annexB ha, h, Res.val_bind, Res.val_bind]
    dsimp only
    unfold toolDump
    rw [hm]
    dsimp only
    rw [cat_vals _ (fun n => unitText a.add_contents ((data.drop n.offset).take n.length)
      (match n.fdump (if a.as_one_line then -1 else 0) (toolOptions a) with | .val t => t | .bad _ => [])) _ ?_, Res.val_bind, hu,
      Res.val_bind]
    · rfl
    · intro n hn
      obtain ⟨t, ht, _⟩ := hd n hn
      rw [dumpAllUnit_eq ht (by have := ((units_sum (by omega) h).2.2 n hn).2; omega), ht]

/-- C58: the bytes can be read back from what is written. -/
theorem C58_contents_faithful {a b : List UInt8} (h : hexBytes 0 a = hexBytes 0 b) : a = b := hexBytes_inj a b 0 h

/-! ### The table -/

/-- C59: with an Annex B stream in the mode that shows lengths, the tool returns, and writes the table of the NAL units and
frames.  Missing: products of length and frame rate that do not fit into 64 bits (`C59_rate_overflow`), streams of 2 GiB and more,
and streams with size fields, where lengths are wrong (C17_length_wrong). -/
theorem C59_table_partial {nd : Bool} {a : ToolArgs} (ha : a.nalu_length_bytes < 0) (hm : a.dumpmode = .dump_length) {data : List UInt8}
    (hl : data.length < 2 ^ 31) (h0 : 0 ≤ a.frames_per_second) (hr : 8 * (data.length : Int) * a.frames_per_second < 2 ^ 63) :
    ∃ (bs : Bitstream) (σ' : Store) (c' : Nat) (code : Int),
      parseBitstream nd (toolOptions a) data {} 0 = .val (bs, σ', c') ∧
      ∀ before frames, FrameSplit bs.nal_units before frames →
        toolMain nd a data = .val (csvTable a.frames_per_second before frames, code) := by
  obtain ⟨⟨bs, σ', c'⟩, h⟩ := C37_bitstream_partial .empty nd (toolOptions a) (data := data) (by omega)
    (fun _ e he => by
      have := (entries_inside data _ (starts_sorted data) (fun p hp => mem_starts.mp hp) e he).2.2
      omega) 0
  obtain ⟨m, hu, _⟩ := unparsed_annexB ha (by omega) Store.valid_empty h
  obtain ⟨s1, s2, _⟩ := units_sum (by omega) h
  refine ⟨bs, σ', c', toolExit m c', h, fun before frames hf => ?_⟩
  unfold toolMain
  rw [toolParse_annexB ha, h, Res.val_bind, Res.val_bind]
  dsimp only
  unfold toolDump
  rw [hm]
  dsimp only
  rw [csv_table h0 hf (units_csv (by omega) Store.valid_empty h) (by omega) (rate_lt h0 s1 hr) (by omega), hu, csvHeader_eq]
  simp only [cat, Res.val_bind, Res.pure_eq, List.append_nil]
  rfl

/-- Frames after the first one are found in only one way. -/
theorem cut_unique : ∀ (ns r r' : List NalUnit) (gs gs' : List (List NalUnit)), ns = r ++ gs.flatten → ns = r' ++ gs'.flatten →
    (∀ m ∈ r, IsSlice m → firstMb m ≠ 0) → (∀ m ∈ r', IsSlice m → firstMb m ≠ 0) →
    (∀ g ∈ gs, ∃ n q, g = n :: q ∧ IsSlice n ∧ firstMb n = 0 ∧ ∀ m ∈ q, IsSlice m → firstMb m ≠ 0) →
    (∀ g ∈ gs', ∃ n q, g = n :: q ∧ IsSlice n ∧ firstMb n = 0 ∧ ∀ m ∈ q, IsSlice m → firstMb m ≠ 0) → r = r' ∧ gs = gs' := by
  have key : ∀ (ns r : List NalUnit) (n : NalUnit) (gs : List (List NalUnit)), n :: ns = r ++ gs.flatten →
      (∀ m ∈ r, IsSlice m → firstMb m ≠ 0) →
      (∀ g ∈ gs, ∃ n q, g = n :: q ∧ IsSlice n ∧ firstMb n = 0 ∧ ∀ m ∈ q, IsSlice m → firstMb m ≠ 0) →
      (IsSlice n ∧ firstMb n = 0 ∧ r = [] ∧ ∃ q gs1, gs = (n :: q) :: gs1 ∧ ns = q ++ gs1.flatten ∧ ∀ m ∈ q, IsSlice m → firstMb m ≠ 0) ∨
      ((IsSlice n → firstMb n ≠ 0) ∧ ∃ r1, r = n :: r1 ∧ ns = r1 ++ gs.flatten) := by
    intro ns r n gs e hr hg
    cases r with
    | nil =>
      left
      cases gs with
      | nil => cases e
      | cons g gs =>
        obtain ⟨m, q, rfl, h1, h2, h3⟩ := hg g (by simp)
        simp only [List.nil_append, List.flatten_cons, List.cons_append, List.cons.injEq] at e
        obtain ⟨rfl, e⟩ := e
        exact ⟨h1, h2, rfl, q, gs, rfl, e, h3⟩
    | cons m r =>
      right
      simp only [List.cons_append, List.cons.injEq] at e
      obtain ⟨rfl, e⟩ := e
      exact ⟨hr n (by simp), r, rfl, e⟩
  intro ns
  induction ns with
  | nil =>
    intro r r' gs gs' e e' _ _ hg hg'
    have h0 : ∀ (r : List NalUnit) (gs : List (List NalUnit)), [] = r ++ gs.flatten →
        (∀ g ∈ gs, ∃ n q, g = n :: q ∧ IsSlice n ∧ firstMb n = 0 ∧ ∀ m ∈ q, IsSlice m → firstMb m ≠ 0) → r = [] ∧ gs = [] := by
      intro r gs e hg
      have e := e.symm
      rw [List.append_eq_nil_iff] at e
      refine ⟨e.1, ?_⟩
      cases gs with
      | nil => rfl
      | cons g gs =>
        obtain ⟨m, q, rfl, _⟩ := hg g (by simp)
        simp at e
    obtain ⟨rfl, rfl⟩ := h0 r gs e hg
    obtain ⟨rfl, rfl⟩ := h0 r' gs' e' hg'
    exact ⟨rfl, rfl⟩
  | cons n ns ih =>
    intro r r' gs gs' e e' hr hr' hg hg'
    rcases key ns r n gs e hr hg with ⟨a1, a2, rfl, q, gs1, rfl, a3, a4⟩ | ⟨a1, r1, rfl, a2⟩
    · rcases key ns r' n gs' e' hr' hg' with ⟨b1, b2, rfl, q', gs1', rfl, b3, b4⟩ | ⟨b1, r1', rfl, b2⟩
      · obtain ⟨rfl, rfl⟩ := ih q q' gs1 gs1' a3 b3 a4 b4 (fun g h => hg g (by simp [h])) (fun g h => hg' g (by simp [h]))
        exact ⟨rfl, rfl⟩
      · exact absurd a2 (b1 a1)
    · rcases key ns r' n gs' e' hr' hg' with ⟨b1, b2, rfl, q', gs1', rfl, b3, b4⟩ | ⟨b1, r1', rfl, b2⟩
      · exact absurd b2 (a1 b1)
      · obtain ⟨rfl, rfl⟩ := ih r1 r1' gs gs' a2 b2 (fun m h => hr m (by simp [h])) (fun m h => hr' m (by simp [h])) hg hg'
        exact ⟨rfl, rfl⟩

theorem FrameSplit.cases {n : NalUnit} {ns before : List NalUnit} {frames : List (List NalUnit)} (h : FrameSplit (n :: ns) before frames) :
    (¬ IsSlice n ∧ ∃ b, before = n :: b ∧ FrameSplit ns b frames) ∨
    (IsSlice n ∧ before = [] ∧ ∃ r gs, frames = (n :: r) :: gs ∧ ns = r ++ gs.flatten ∧ (∀ m ∈ r, IsSlice m → firstMb m ≠ 0) ∧
      ∀ g ∈ gs, ∃ n q, g = n :: q ∧ IsSlice n ∧ firstMb n = 0 ∧ ∀ m ∈ q, IsSlice m → firstMb m ≠ 0) := by
  obtain ⟨e, hb, hf, hz⟩ := h
  cases before with
  | cons m b =>
    left
    simp only [List.cons_append, List.cons.injEq] at e
    obtain ⟨rfl, e⟩ := e
    exact ⟨hb n (by simp), b, rfl, e, fun x hx => hb x (by simp [hx]), hf, hz⟩
  | nil =>
    right
    cases frames with
    | nil => cases e
    | cons g gs =>
      obtain ⟨m, r, rfl, h1, h2⟩ := hf g (by simp)
      simp only [List.nil_append, List.flatten_cons, List.cons_append, List.cons.injEq] at e
      obtain ⟨rfl, e⟩ := e
      refine ⟨h1, rfl, r, gs, rfl, e, h2, fun g hg => ?_⟩
      obtain ⟨n', q, e', h3, h4⟩ := hf g (by simp [hg])
      obtain ⟨n'', q', e'', h5⟩ := hz g hg
      rw [e'] at e''
      cases e''
      exact ⟨n', q, e', h3, h5, h4⟩

/-- C59: every list of NAL units is split into frames in exactly one way. -/
theorem C59_split (ns : List NalUnit) : ∃ before frames, FrameSplit ns before frames ∧
    ∀ before' frames', FrameSplit ns before' frames' → before' = before ∧ frames' = frames := by
  obtain ⟨b, f, h⟩ := frames_exist ns
  refine ⟨b, f, h, ?_⟩
  revert b f
  induction ns with
  | nil =>
    have h0 : ∀ b f, FrameSplit [] b f → b = [] ∧ f = [] := by
      rintro b f ⟨e, _, hf, _⟩
      have e := e.symm
      rw [List.append_eq_nil_iff] at e
      refine ⟨e.1, ?_⟩
      cases f with
      | nil => rfl
      | cons g f =>
        obtain ⟨m, q, rfl, _⟩ := hf g (by simp)
        simp at e
    intro b f h b' f' h'
    obtain ⟨rfl, rfl⟩ := h0 b f h
    exact h0 b' f' h'
  | cons n ns ih =>
    intro b f h b' f' h'
    rcases FrameSplit.cases h with ⟨a1, b1, rfl, a2⟩ | ⟨a1, rfl, r, gs, rfl, a2, a3, a4⟩
    · rcases FrameSplit.cases h' with ⟨c1, b1', rfl, c2⟩ | ⟨c1, _⟩
      · obtain ⟨rfl, rfl⟩ := ih b1 f a2 b1' f' c2
        exact ⟨rfl, rfl⟩
      · exact absurd c1 a1
    · rcases FrameSplit.cases h' with ⟨c1, _⟩ | ⟨c1, rfl, r', gs', rfl, c2, c3, c4⟩
      · exact absurd a1 c1
      · obtain ⟨rfl, rfl⟩ := cut_unique ns r' r gs' gs c2 a2 c3 a3 c4 a4
        exact ⟨rfl, rfl⟩

/-! ### Streams with sizes -/

theorem lengthUnits_offset {l : List UInt8} {k pos : Nat} {us : List (Nat × List UInt8)} (h : LengthUnits l k pos us) :
    ∀ u ∈ us, u.1 ≤ l.length := by
  induction h with
  | stop _ => simp
  | next _ _ h1 _ ih =>
    intro u hu
    rcases List.mem_cons.mp hu with rfl | hu
    · dsimp only; omega
    · exact ih u hu

/-- Where the NAL units of a stream with sizes are said to be. -/
theorem length_units {nd : Bool} {opts : ParsingOptions} {data : List UInt8} (hl : data.length < 2 ^ 61) {k : Nat} (hk : k ≤ 7)
    {σ σ' : Store} {c c' : Nat} {bs : Bitstream} (h : parseBitstreamNALULength nd opts data k σ c = .val (bs, σ', c')) :
    ∀ n ∈ bs.nal_units, n.offset ≤ data.length ∧ n.length = k := by
  by_cases h0 : k = 0
  · subst h0
    by_cases hd : data = []
    · subst hd
      have : parseBitstreamNALULength nd opts [] 0 σ c = .val ({}, σ, c) := rfl
      rw [this] at h
      cases h
      simp
    · obtain ⟨_, n, _, h1⟩ := (C17_no_prefix_partial nd opts data hl hd σ c bs σ' c').mp h
      rw [h1]
      intro m hm
      obtain ⟨x, _, rfl⟩ := List.mem_map.mp hm
      exact ⟨by dsimp only; omega, rfl⟩
  · obtain ⟨us, h1, h2⟩ := C17_in_order_upto7_partial nd opts data hl (k := k) (by omega) hk
    obtain ⟨_, ns, h3, h4⟩ := (h2 σ c bs σ' c').mp h
    obtain ⟨a, _⟩ := inOrder_lengths (fun u hu => by have := lengthUnits_lt h1 u hu; omega) h3
    rw [h4]
    intro m hm
    obtain ⟨n, hn, rfl⟩ := List.mem_map.mp hm
    obtain ⟨_, u, hu, h5, _⟩ := a n hn
    exact ⟨by dsimp only; rw [h5]; exact lengthUnits_offset h1 u hu, rfl⟩

theorem toolParse_length {nd : Bool} {a : ToolArgs} (ha : 0 ≤ a.nalu_length_bytes) (data : List UInt8) :
    toolParse nd a data = (parseBitstreamNALULength nd (toolOptions a) data a.nalu_length_bytes.toNat {} 0 >>= fun r => .val (r.1, r.2.2)) := by
  unfold toolParse
  rw [if_neg (by omega)]
  rfl

/-- C58 for streams with sizes.  Missing: what is shown as the contents of a NAL unit is as long as the size field, not as the
NAL unit (`C58_length_contents_wrong`). -/
theorem C58_length_partial {nd : Bool} {a : ToolArgs} (ha : 0 ≤ a.nalu_length_bytes) (ha7 : a.nalu_length_bytes ≤ 7)
    (hm : a.dumpmode = .dump_all) {data : List UInt8} (hl : data.length < 2 ^ 32) :
    ∃ (bs : Bitstream) (σ' : Store) (c' : Nat) (text : NalUnit → List Char) (code : Int),
      parseBitstreamNALULength nd (toolOptions a) data a.nalu_length_bytes.toNat {} 0 = .val (bs, σ', c') ∧
      (∀ n ∈ bs.nal_units, n.fdump (if a.as_one_line then -1 else 0) (toolOptions a) = .val (text n)) ∧
      toolMain nd a data = .val (bs.nal_units.flatMap
        (fun n => unitText a.add_contents ((data.drop n.offset).take a.nalu_length_bytes.toNat) (text n)), code) := by
  obtain ⟨⟨bs, σ', c'⟩, h⟩ := C37_bitstreamNALULength_partial .empty nd (toolOptions a) (data := data) (by omega)
    (fun _ => hl) (k := a.nalu_length_bytes.toNat) (by omega) 0
  have hd := C46_units_length .empty (by omega) h (toolLevel a)
  refine ⟨bs, σ', c', fun n => match n.fdump (if a.as_one_line then -1 else 0) (toolOptions a) with | .val t => t | .bad _ => [],
    toolExit (bs.nal_units.foldl (fun m n => if n.nal_unit_payload.isPayloadParsed n.nal_unit_header.nal_unit_type = false then add64 m 1 else m) 0) c',
    h, ?_, ?_⟩
  · intro n hn
    obtain ⟨t, ht, _⟩ := hd n hn
    simp only [ht]
  · unfold toolMain
    rw [toolParse_length ha, h, Res.val_bind, Res.val_bind]
    dsimp only
    unfold toolDump
    rw [hm]
    dsimp only
    rw [cat_vals _ (fun n => unitText a.add_contents ((data.drop n.offset).take a.nalu_length_bytes.toNat)
      (match n.fdump (if a.as_one_line then -1 else 0) (toolOptions a) with | .val t => t | .bad _ => [])) _ ?_, Res.val_bind]
    · unfold unparsedUnits
      rw [if_neg (by omega)]
      rfl
    · intro n hn
      obtain ⟨t, ht, _⟩ := hd n hn
      have := length_units (by omega) (by omega) h n hn
      rw [dumpAllUnit_eq ht (by omega), ht, this.2]

/-- C58 fails for streams with sizes: of the three bytes of this NAL unit (size field of one byte) the tool shows one. -/
theorem C58_length_contents_wrong (nd : Bool) : ∃ r, toolMain nd { nalu_length_bytes := 1, add_contents := true } [3, 0x09, 0x10, 0x80] = .val r ∧
    " contents { 09 }\n".toList <:+ r.1 := by
  cases nd <;> exact exists_dec (by decide +kernel)

/-- The NAL units of a stream with sizes do not overlap. -/
theorem lengthUnits_count {l : List UInt8} {k pos : Nat} {us : List (Nat × List UInt8)} (h : LengthUnits l k pos us) :
    us.length * (k + 1) ≤ l.length - pos := by
  induction h with
  | stop _ => simp
  | next _ _ h1 _ ih => rw [List.length_cons, Nat.add_mul, Nat.one_mul]; omega

theorem inOrder_count {parse : List UInt8 → Store → Nat → Res (Option NalUnit × Store × Nat)} {us : List (Nat × List UInt8)}
    {σ σ' : Store} {c c' : Nat} {ns : List NalUnit} (h : InOrder parse us σ c ns σ' c') : ns.length ≤ us.length := by
  induction h with
  | nil σ c => simp
  | skip _ _ ih => rw [List.length_cons]; omega
  | unit _ _ ih => rw [List.length_cons, List.length_cons]; omega

theorem sum_const {α : Type} {f : α → Nat} {k : Nat} : ∀ {l : List α}, (∀ x ∈ l, f x = k) → (l.map f).sum = l.length * k
  | [], _ => by simp
  | x :: l, h => by
    rw [List.map_cons, List.sum_cons, sum_const (fun y hy => h y (by simp [hy])), h x (by simp), List.length_cons, Nat.add_mul]
    omega

/-- The NAL units of a stream with sizes, as the table shows them. -/
theorem length_sum {nd : Bool} {opts : ParsingOptions} {data : List UInt8} (hl : data.length < 2 ^ 61) {k : Nat} (hk : k ≤ 7)
    {σ σ' : Store} {c c' : Nat} {bs : Bitstream} (h : parseBitstreamNALULength nd opts data k σ c = .val (bs, σ', c')) :
    bs.nal_units.length * (k + 1) ≤ data.length ∧ (k = 0 → bs.nal_units.length ≤ 1) := by
  by_cases h0 : k = 0
  · subst h0
    by_cases hd : data = []
    · subst hd
      have : parseBitstreamNALULength nd opts [] 0 σ c = .val ({}, σ, c) := rfl
      rw [this] at h
      cases h
      simp
    · obtain ⟨_, n, _, h1⟩ := (C17_no_prefix_partial nd opts data hl hd σ c bs σ' c').mp h
      have := List.length_pos_iff.mpr hd
      rw [h1, List.length_map]
      cases n <;> simp <;> omega
  · obtain ⟨us, h1, h2⟩ := C17_in_order_upto7_partial nd opts data hl (k := k) (by omega) hk
    obtain ⟨_, ns, h3, h4⟩ := (h2 σ c bs σ' c').mp h
    refine ⟨?_, fun h => absurd h h0⟩
    rw [h4, List.length_map]
    exact Nat.le_trans (Nat.mul_le_mul_right _ (inOrder_count h3)) (lengthUnits_count h1)

theorem length_csv {nd : Bool} {opts : ParsingOptions} {data : List UInt8} (hl : data.length < 2 ^ 61) {k : Nat} {σ σ' : Store}
    {c c' : Nat} {bs : Bitstream} (hσ : σ.Valid) (h : parseBitstreamNALULength nd opts data k σ c = .val (bs, σ', c')) :
    ∀ n ∈ bs.nal_units, CsvRow n :=
  bitstreamNALULength_all (fun _ _ _ _ _ _ _ _ o k hσ hb h he => parse_csv o k hσ hb h he) hσ hl h

theorem length_unparsed {nd : Bool} {opts : ParsingOptions} {data : List UInt8} (hl : data.length < 2 ^ 61) {k : Nat} {σ σ' : Store}
    {c c' : Nat} {bs : Bitstream} (hσ : σ.Valid) (h : parseBitstreamNALULength nd opts data k σ c = .val (bs, σ', c')) :
    ∀ n ∈ bs.nal_units, n.nal_unit_payload.isPayloadParsed n.nal_unit_header.nal_unit_type = false ↔ Unparsed n :=
  bitstreamNALULength_all (P := fun n => n.nal_unit_payload.isPayloadParsed n.nal_unit_header.nal_unit_type = false ↔ Unparsed n)
    (fun _ _ _ _ _ _ _ n _ _ _ hb h he => by
      have := C50_isPayloadParsed h hb he (n := n)
      exact this) hσ hl h

theorem unparsed_length {nd : Bool} {a : ToolArgs} (ha : 0 ≤ a.nalu_length_bytes) (ha7 : a.nalu_length_bytes ≤ 7) {data : List UInt8}
    (hl : data.length < 2 ^ 61) {opts : ParsingOptions} {σ σ' : Store} {c c' : Nat} {bs : Bitstream} (hσ : σ.Valid)
    (h : parseBitstreamNALULength nd opts data a.nalu_length_bytes.toNat σ c = .val (bs, σ', c')) :
    ∃ m, unparsedUnits a data bs = .val m ∧ (0 < m ↔ ∃ n ∈ bs.nal_units, Unparsed n) := by
  have h1 := (length_sum hl (by omega) h).1
  have h2 : bs.nal_units.length * 1 ≤ bs.nal_units.length * (a.nalu_length_bytes.toNat + 1) := Nat.mul_le_mul_left _ (by omega)
  obtain ⟨k, h3, h4⟩ := unparsed_fold 0 (by omega) (length_unparsed hl hσ h)
  refine ⟨0 + k, ?_, by rw [Nat.zero_add]; exact h4⟩
  unfold unparsedUnits
  rw [if_neg (by omega), Res.pure_eq, Res.val_bind]
  dsimp only
  rw [h3, Res.pure_eq]

/-- C56 for streams with sizes: each NAL unit is counted at most once. -/
theorem C56_length {nd : Bool} {opts : ParsingOptions} {data : List UInt8} (hl : data.length < 2 ^ 61) {k : Nat} (hk : k ≤ 7)
    {σ σ' : Store} {c c' : Nat} {bs : Bitstream} (h : parseBitstreamNALULength nd opts data k σ c = .val (bs, σ', c')) :
    c ≤ c' ∧ c' ≤ c + data.length := by
  by_cases h0 : k = 0
  · subst h0
    by_cases hd : data = []
    · subst hd
      have : parseBitstreamNALULength nd opts [] 0 σ c = .val ({}, σ, c) := rfl
      rw [this] at h
      cases h
      simp
    · obtain ⟨_, n, h1, _⟩ := (C17_no_prefix_partial nd opts data hl hd σ c bs σ' c').mp h
      have := List.length_pos_iff.mpr hd
      have := C56_at_most_once (by omega) hl h1
      omega
  · obtain ⟨us, h1, h2⟩ := C17_in_order_upto7_partial nd opts data hl (k := k) (by omega) hk
    obtain ⟨_, ns, h3, _⟩ := (h2 σ c bs σ' c').mp h
    obtain ⟨a1, a2, a3⟩ := C56_sequence (fun u hu => by have := lengthUnits_lt h1 u hu; omega) h3
    have a4 := List.length_filter_le (fun n => @decide (Lacking n) (Classical.propDecidable _)) ns
    have a5 := lengthUnits_count h1
    have a6 : us.length * 1 ≤ us.length * (k + 1) := Nat.mul_le_mul_left _ (by omega)
    omega

/-- C57 for streams with sizes: the same exit status, except that NAL units that are dropped do not count.  Missing: what
`C57_exit_partial` misses, and the dropped NAL units (`C57_length_dropped`). -/
theorem C57_length_partial {nd : Bool} {a : ToolArgs} (ha : 0 ≤ a.nalu_length_bytes) (ha7 : a.nalu_length_bytes ≤ 7) {data : List UInt8}
    (hl : data.length < 2 ^ 32) {σ' : Store} {c' : Nat} {bs : Bitstream}
    (h : parseBitstreamNALULength nd (toolOptions a) data a.nalu_length_bytes.toNat {} 0 = .val (bs, σ', c'))
    {out : List Char} {code : Int} (hm : toolMain nd a data = .val (out, code)) :
    (code = 2 ↔ 0 < c') ∧ (code = 1 ↔ c' = 0 ∧ ∃ n ∈ bs.nal_units, Unparsed n) ∧
    (code = 0 ↔ c' = 0 ∧ ∀ n ∈ bs.nal_units, ¬ Unparsed n) := by
  obtain ⟨m, hu, hi⟩ := unparsed_length ha ha7 (by omega) Store.valid_empty h
  have hc := C56_length (by omega) (by omega) h
  unfold toolMain at hm
  rw [toolParse_length ha, h, Res.val_bind, Res.val_bind] at hm
  dsimp only at hm
  cases hd : toolDump a data bs with
  | bad e => rw [hd, Res.bad_bind] at hm; cases hm
  | val t =>
    rw [hd, Res.val_bind, hu, Res.val_bind, Res.pure_eq] at hm
    simp only [Res.val.injEq, Prod.mk.injEq] at hm
    rw [← hm.2]
    unfold toolExit
    rw [Nat.mod_eq_of_lt (by omega)]
    have hn : (¬ ∃ n ∈ bs.nal_units, Unparsed n) ↔ ∀ n ∈ bs.nal_units, ¬ Unparsed n :=
      ⟨fun h2 n h3 h4 => h2 ⟨n, h3, h4⟩, fun h2 ⟨n, h3, h4⟩ => h2 n h3 h4⟩
    rw [← hn, ← hi]
    by_cases h0 : c' > 0
    · rw [if_pos h0]; omega
    · rw [if_neg h0]
      by_cases h2 : m > 0
      · rw [if_pos h2]; omega
      · rw [if_neg h2]; omega

/-- C59 for streams with sizes.  Missing: as the length of every NAL unit the size of its size field is shown, and the bit rate
follows from it (`C59_length_wrong`). -/
theorem C59_length_partial {nd : Bool} {a : ToolArgs} (ha : 0 < a.nalu_length_bytes) (ha7 : a.nalu_length_bytes ≤ 7)
    (hm : a.dumpmode = .dump_length) {data : List UInt8}
    (hl : data.length < 2 ^ 31) (h0 : 0 ≤ a.frames_per_second) (hr : 8 * (data.length : Int) * a.frames_per_second < 2 ^ 63) :
    ∃ (bs : Bitstream) (σ' : Store) (c' : Nat) (code : Int),
      parseBitstreamNALULength nd (toolOptions a) data a.nalu_length_bytes.toNat {} 0 = .val (bs, σ', c') ∧
      ∀ before frames, FrameSplit bs.nal_units before frames →
        toolMain nd a data = .val (csvTable a.frames_per_second before frames, code) := by
  obtain ⟨⟨bs, σ', c'⟩, h⟩ := C37_bitstreamNALULength_partial .empty nd (toolOptions a) (data := data) (by omega)
    (fun _ => by omega) (k := a.nalu_length_bytes.toNat) (by omega) 0
  obtain ⟨m, hu, _⟩ := unparsed_length (by omega) ha7 (by omega) Store.valid_empty h
  have h1 := (length_sum (by omega) (by omega) h).1
  have h2 := length_units (by omega) (by omega) h
  have h3 : (bs.nal_units.map (·.length)).sum = _ := sum_const (fun n hn => (h2 n hn).2)
  rw [Nat.mul_add, Nat.mul_one, ← h3] at h1
  refine ⟨bs, σ', c', toolExit m c', h, fun before frames hf => ?_⟩
  unfold toolMain
  rw [toolParse_length (by omega), h, Res.val_bind, Res.val_bind]
  dsimp only
  unfold toolDump
  rw [hm]
  dsimp only
  rw [csv_table h0 hf (fun n hn => ⟨length_csv (by omega) Store.valid_empty h n hn, by rw [(h2 n hn).2]; omega⟩) (by omega)
    (rate_lt h0 (by omega) hr) (by omega), hu, csvHeader_eq]
  simp only [cat, Res.val_bind, Res.pure_eq, List.append_nil]
  rfl

/-- With size fields of no bytes the table has a row for the NAL unit, with length 0, and no row for its frame. -/
theorem C59_no_sizes {nd : Bool} {a : ToolArgs} (ha : a.nalu_length_bytes = 0)
    (hm : a.dumpmode = .dump_length) {data : List UInt8} (hl : data.length < 2 ^ 31) :
    ∃ (bs : Bitstream) (σ' : Store) (c' : Nat) (code : Int),
      parseBitstreamNALULength nd (toolOptions a) data 0 {} 0 = .val (bs, σ', c') ∧
        toolMain nd a data = .val (csvTable a.frames_per_second bs.nal_units [], code) := by
  have ha' : a.nalu_length_bytes.toNat = 0 := by omega
  obtain ⟨⟨bs, σ', c'⟩, h⟩ := C37_bitstreamNALULength_partial .empty nd (toolOptions a) (data := data) (by omega)
    (fun _ => by omega) (k := 0) (by omega) 0
  obtain ⟨m, hu, _⟩ := unparsed_length (a := a) (data := data) (by omega) (by omega) (by omega) Store.valid_empty (by rw [ha']; exact h)
  have h1 := (length_sum (by omega) (by omega) h).2 rfl
  have h2 := length_units (by omega) (by omega) h
  have h3 := length_csv (by omega) Store.valid_empty h
  refine ⟨bs, σ', c', toolExit m c', h, ?_⟩
  have e : csvUnits a.frames_per_second bs.nal_units {} = .val (unitLines 0 0 bs.nal_units) := by
    cases hn : bs.nal_units with
    | nil => rfl
    | cons n ns =>
      rw [hn] at h1 h2 h3
      rw [List.length_cons] at h1
      obtain rfl : ns = [] := List.length_eq_zero_iff.mp (by omega)
      have hz := (h2 n (by simp)).2
      have e0 : (⟨(0 : Nat), (0 : Nat), (0 : Nat), -1⟩ : CsvState) = {} := rfl
      by_cases hs : IsSlice n
      · rw [← e0, csvUnits_cons (csvUnit_slice (h3 n (by simp)) hs (T := 0) (i := 0) (f := 0) (last := -1) (csvNewFrame_no (.inr rfl)) (by omega) (by omega)),
          csvUnits, if_neg (by dsimp only; omega), Res.val_bind]
        simp only [List.nil_append, unitLines]
      · rw [← e0, csvUnits_cons (csvUnit_other (h3 n (by simp)) hs (by omega) (by omega)),
          csvUnits, if_neg (by dsimp only; omega), Res.val_bind]
        simp only [unitLines]
  unfold toolMain
  rw [toolParse_length (by omega), ha', h, Res.val_bind, Res.val_bind]
  dsimp only
  unfold toolDump
  rw [hm]
  dsimp only
  rw [e, hu, csvHeader_eq]
  unfold csvTable
  simp only [cat, Res.val_bind, Res.pure_eq, List.append_nil, frameLines]

/-- C59 fails for streams with sizes: a slice of 3 bytes is shown with length 1, which is the size of its size field; the bit rate
shown is 240 although 3 bytes a frame are 720. -/
theorem C59_length_wrong (nd : Bool) : toolMain nd { dumpmode := .dump_length, nalu_length_bytes := 1 } [3, 0x22, 0x81, 0x82] = .val
      ("nal_num,frame_num,nal_unit_type,nal_unit_type_str,".toList ++ "nal_length_bytes,bitrate_bps,first_mb_in_slice\n".toList ++
       "0,0,2,coded_slice_data_partition_a,1,,0\n".toList ++ ",0,2,frame,,240,\n".toList, 0) := by
  cases nd <;> decide +kernel

/-- A slice without a size field. -/
example (nd : Bool) : toolMain nd { dumpmode := .dump_length, nalu_length_bytes := 0 } [0x22, 0x81, 0x82] = .val
      ("nal_num,frame_num,nal_unit_type,nal_unit_type_str,".toList ++ "nal_length_bytes,bitrate_bps,first_mb_in_slice\n".toList ++
       "0,0,2,coded_slice_data_partition_a,0,,0\n".toList, 0) := by
  cases nd <;> decide +kernel

/-- C57 fails for streams with sizes: a NAL unit that is dropped does not matter for the exit status.  The same NAL unit in an
Annex B stream is reported with exit status 1. -/
theorem C57_length_dropped (nd : Bool) : toolMain nd { nalu_length_bytes := 1 } [1, 0x6E] = .val ([], 0) ∧
    toolMain nd {} [0, 0, 1, 0x6E] = .val ([], 1) := by
  cases nd <;> decide +kernel

/-- A slice of an enhancement layer whose header cannot be parsed because there are no parameter sets. -/
def exOrphan : List UInt8 := [0, 0, 1, 0x74, 0xC0, 0x00, 0x07, 0x80]

/-- C57 fails for slices of enhancement layers: exit status 0 although the slice header is missing. -/
theorem C57_orphan (nd : Bool) : ∃ r, parseBitstream nd (toolOptions {}) exOrphan {} 0 = .val r ∧
    (r.1.nal_units.map (fun n => n.nal_unit_payload.slice_layer_extension_rbsp.map (·.slice_header_in_scalable_extension)) = [some none] ∧
      (toolMain nd {} exOrphan).passes (fun x => decide (x.2 = 0)) = true) := by
  cases nd <;> exact exists_dec (by decide +kernel)

/-! ### The bit rate -/

theorem escapeFrom_same : ∀ (l : List UInt8), (∀ b ∈ l, b.toNat > 3) → escapeFrom 0 l = l
  | [], _ => rfl
  | b :: l, h => by
    have := h b (by simp)
    rw [escapeFrom, if_neg (by omega), if_neg (by omega), escapeFrom_same l (fun x hx => h x (by simp [hx]))]

theorem coded_partition (N : Nat) : CodedNal {} (exHdr 1 2) (0x22 :: List.replicate (N + 1) 0x80) {} {} := by
  refine ⟨exHdr_ok (by decide) (by decide), allBits (List.replicate N 0x80), trailingBits 7, 0x22 :: List.replicate (N + 1) 0x80,
    .other _ (by decide), .stop 7 0 (by omega) (by simp), ?_, ?_⟩
  · rw [List.replicate_succ', allBits_cons, allBits_append, ← List.append_assoc]
    congr 1
  · unfold escapeNal escape
    have e : (0x22 :: List.replicate (N + 1) 0x80 : List UInt8).getLast? = some 0x80 := by
      rw [List.replicate_succ', ← List.cons_append, List.getLast?_concat]
    rw [e, if_neg (by decide), escapeFrom_same]
    intro b hb
    rcases List.mem_cons.mp hb with rfl | hb
    · decide
    · rw [List.eq_of_mem_replicate hb]; decide

/-- C59 fails for large frames and frame rates: the bit rate does not fit into 64 bits.  The input is a slice data partition of
between 512 MiB and 1 GiB. -/
theorem C59_rate_overflow {nd : Bool} {N : Nat} (h1 : 2 ^ 29 ≤ N) (h2 : N < 2 ^ 30) :
    toolMain nd { dumpmode := .dump_length, frames_per_second := 2 ^ 31 - 1 } ([0, 0, 1, 0x22] ++ List.replicate (N + 1) 0x80) =
      .bad .overflow := by
  have hs : CodedStream {} [(false, 0x22 :: List.replicate (N + 1) 0x80)] [(exHdr 1 2, {})] {} := .cons (coded_partition N) (.nil _)
  have e : annexB [(false, 0x22 :: List.replicate (N + 1) 0x80)] = [0, 0, 1, 0x22] ++ List.replicate (N + 1) 0x80 := by
    simp [annexB]
  have hl : ([0, 0, 1, 0x22] ++ List.replicate (N + 1) 0x80 : List UInt8).length = N + 5 := by
    rw [List.length_append, List.length_replicate]; simp; omega
  obtain ⟨bs, h3, h4, h5⟩ := C51_stream nd (toolOptions { dumpmode := .dump_length, frames_per_second := 2 ^ 31 - 1 }) Store.valid_empty hs
    (by rw [e, hl]; omega) 0
  rw [e] at h3
  cases hn : bs.nal_units with
  | nil => rw [hn] at h4; cases h4
  | cons n ns =>
    rw [hn] at h4 h5
    simp only [List.map_cons, List.cons.injEq, Prod.mk.injEq, List.map_eq_nil_iff] at h4
    obtain ⟨⟨h6, h7⟩, rfl⟩ := h4
    simp only [annexBUnits, List.map_cons, List.cons.injEq, Prod.mk.injEq, List.length_cons, List.length_replicate, List.map_nil] at h5
    have h8 : n.length = N + 2 := by have := h5.1.2; omega
    have hc := units_csv (by rw [hl]; omega) Store.valid_empty h3 n (by rw [hn]; simp)
    have hi : IsSlice n := by unfold IsSlice; rw [h6]; decide
    unfold toolMain
    rw [toolParse_annexB (by decide), h3, Res.val_bind, Res.val_bind]
    dsimp only
    unfold toolDump
    dsimp only
    have e0 : (⟨(0 : Nat), (0 : Nat), (0 : Nat), -1⟩ : CsvState) = {} := rfl
    rw [hn, ← e0, csvUnits_cons (csvUnit_slice hc.toCsvRow hi (T := 0) (i := 0) (f := 0) (last := -1) (csvNewFrame_no (.inr rfl)) (by omega) (by omega)),
      Nat.zero_add, csvUnits, if_pos (by dsimp only; omega)]
    unfold frameRow sint64
    dsimp only
    rw [if_pos (by omega), Res.val_bind, if_neg (by omega), Res.bad_bind]
    rfl

/-- C57, C58 and C59 are about real output: a stream with two pictures in the mode that shows lengths, -/
example (nd : Bool) : toolMain nd { dumpmode := .dump_length }
    [0, 0, 1, 0x09, 0x10, 0, 0, 1, 0x22, 0x80, 0, 0, 1, 0x22, 0x81, 0x82, 0, 0, 0, 1, 0x0B] = .val
      ("nal_num,frame_num,nal_unit_type,nal_unit_type_str,".toList ++ "nal_length_bytes,bitrate_bps,first_mb_in_slice\n".toList ++
       "0,0,9,aud,2,,\n".toList ++ "1,0,2,coded_slice_data_partition_a,2,,0\n".toList ++ ",0,2,frame,,480,\n".toList ++
       "2,1,2,coded_slice_data_partition_a,3,,0\n".toList ++ "3,1,11,eostream,1,,\n".toList ++ ",1,2,frame,,720,\n".toList, 0) := by
  cases nd <;> decide +kernel

/-- an access unit delimiter with its contents, -/
example (nd : Bool) : toolMain nd { add_contents := true } [0, 0, 1, 0x09, 0x10, 0x80] = .val
    ("nal_unit { offset: 0x00000003 length: 3 ".toList ++ "nal_unit_header { forbidden_zero_bit: 0 nal_ref_idc: 0 ".toList ++
     "nal_unit_type: 9 } nal_unit_payload {  } }".toList ++ " contents { 09 10 80 }\n".toList, 0) := by
  cases nd <;> decide +kernel

/-- a slice without parameter sets, which gives exit status 1, -/
example (nd : Bool) : ∃ r, toolMain nd {} [0, 0, 1, 0x65, 0x80] = .val r ∧ r.2 = 1 := by
  cases nd <;> exact exists_dec (by decide +kernel)

/-- a prefix NAL unit with marking, which gives exit status 2, -/
example (nd : Bool) : ∃ r, toolMain nd {} [0, 0, 1, 0x6E, 0x80, 0x00, 0x07, 0xFF, 0x80] = .val r ∧ r.2 = 2 := by
  cases nd <;> exact exists_dec (by decide +kernel)

/-- and a coded stream. -/
example (nd : Bool) : ∃ r, toolMain nd {} (annexB exStreamUnits) = .val r ∧ r.2 = 0 := by
  cases nd <;> exact exists_dec (by decide +kernel)

end H264.Props
