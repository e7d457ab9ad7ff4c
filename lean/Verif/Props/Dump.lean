import Verif.DumpParsed
import Verif.Props.StapA

/-
C46: what the parsers return can be dumped.  C53: what the dumps look like.
-/

namespace H264.Props
open H264.Spec Prog

/-- The indentation levels callers use: -1 for a dump on one line, otherwise the level of the outermost structure. -/
abbrev Level (level : Int) : Prop := level = -1 ∨ 0 ≤ level

theorem laidOut {l : Int} {t : Text} (h : BlkAt l t) : LaidOut l t := by
  rcases h with ⟨rfl, h1, h2⟩ | ⟨n, rfl, h⟩
  · exact ⟨h1, fun _ => h2, fun h => absurd h (by decide)⟩
  · exact ⟨h.bal, fun h => by omega, fun _ => h.ind⟩

theorem dumped {l : Int} {d : Dump} (h : BlkD l d) : ∃ t, d = .val t ∧ LaidOut l t := by
  obtain ⟨t, h, ht⟩ := h
  exact ⟨t, h, laidOut ht⟩

theorem block_prefix {name : String} {l : Int} {body : Int → List Dump} {t : Text} (h : block name l body = .val t) :
    (name.toList ++ [' ', '{']) <+: t := by
  unfold block at h
  cases hc : cat (body (indentIncr l)) with
  | bad e => rw [hc, Res.bad_bind] at h; cases h
  | val u =>
    rw [hc, Res.val_bind] at h
    simp only [Res.pure_eq, Res.val.injEq] at h
    rw [← h]
    exact ⟨u ++ (indentText (indentDecr (indentIncr l)) ++ ['}']), by simp⟩

/-! ### NAL units -/

/-- C46, C53: a parsed NAL unit can be dumped, whatever it was parsed from and in whatever state, if the dump does not ask for a
checksum that was not computed, and the dump is well laid out. -/
theorem C46_nal_unit {σ σ' : Store} (hσ : Reachable σ) {nd : Bool} {opts : ParsingOptions} {data : List UInt8} {off len c c' : Nat}
    (hl : data.length < 2 ^ 61) (h : off + len ≤ data.length) {n : NalUnit}
    (hp : parseNalUnit nd opts data off len σ c = .val (some n, σ', c')) {level : Int} (hv : Level level) {dopts : ParsingOptions}
    (hc : dopts.add_checksum = true → opts.add_checksum = true) :
    ∃ t, n.fdump level dopts = .val t ∧ LaidOut level t :=
  dumped (parseNalUnit_shows (C36_reachable_valid hσ) hl h hp n.offset n.length level dopts hc hv)

/-- What has no checksum cannot be dumped with one. -/
theorem fdump_no_checksum {n : NalUnit} (h : n.checksum = none) (level : Int) {dopts : ParsingOptions}
    (hc : dopts.add_checksum = true) : n.fdump level dopts = .bad .nullDeref := by
  unfold NalUnit.fdump
  rw [h, hc]
  unfold block whenD
  simp only [if_true, cat, deref]
  cases dopts.add_offset <;> cases dopts.add_length <;> cases dopts.add_parsed_length <;> rfl

/-! ### Bitstreams -/

/-- C46, C53: each NAL unit of a bitstream can be dumped with the options it was parsed with, in any state, as the command line
tool does.  For streams with start codes. -/
theorem C46_units {σ σ' : Store} (hσ : Reachable σ) {nd : Bool} {opts : ParsingOptions} {data : List UInt8} {c c' : Nat}
    (hl : data.length < 2 ^ 61) {bs : Bitstream} (hp : parseBitstream nd opts data σ c = .val (bs, σ', c'))
    {level : Int} (hv : Level level) : ∀ n ∈ bs.nal_units, ∃ t, n.fdump level opts = .val t ∧ LaidOut level t :=
  fun n hn => dumped (bitstream_shows (C36_reachable_valid hσ) hl hp n hn level opts id hv)

/-- The same for streams with sizes. -/
theorem C46_units_length {σ σ' : Store} (hσ : Reachable σ) {nd : Bool} {opts : ParsingOptions} {data : List UInt8} {k c c' : Nat}
    (hl : data.length < 2 ^ 61) {bs : Bitstream} (hp : parseBitstreamNALULength nd opts data k σ c = .val (bs, σ', c'))
    {level : Int} (hv : Level level) : ∀ n ∈ bs.nal_units, ∃ t, n.fdump level opts = .val t ∧ LaidOut level t :=
  fun n hn => dumped (bitstreamNALULength_shows (C36_reachable_valid hσ) hl hp n hn level opts id hv)

/-- The dump of a bitstream is the dumps of its NAL units, a line break after each. -/
theorem bitstream_fdump {bs : Bitstream} {level : Int} (dopts : ParsingOptions) :
    ∀ {ns : List NalUnit} {ts : List Text}, ns.map (·.fdump level bs.parsing_options) = ts.map .val →
      ({ bs with nal_units := ns } : Bitstream).fdump level dopts = .val (ts.flatMap (· ++ ['\n'])) := by
  intro ns
  induction ns with
  | nil =>
    intro ts h
    cases ts with
    | nil => rfl
    | cons t ts => simp at h
  | cons n ns ih =>
    intro ts h
    cases ts with
    | nil => simp at h
    | cons t ts =>
      simp only [List.map_cons, List.cons.injEq] at h
      have := ih h.2
      unfold Bitstream.fdump at this ⊢
      dsimp only at this ⊢
      rw [List.map_cons, cat, this, h.1]
      simp [cat]

/-- The dumps of the NAL units of a bitstream, as `BitstreamState::fdump` writes them one after the other. -/
def UnitsDump (bs : Bitstream) (level : Int) (dopts : ParsingOptions) : Prop :=
  ∃ ts : List Text, ts.length = bs.nal_units.length ∧ (∀ t ∈ ts, LaidOut level t ∧ "nal_unit {".toList <+: t) ∧
    bs.fdump level dopts = .val (ts.flatMap (· ++ ['\n']))

theorem unitsDump {bs : Bitstream} {level : Int} {dopts : ParsingOptions}
    (h : ∀ n ∈ bs.nal_units, ∃ t, n.fdump level bs.parsing_options = .val t ∧ LaidOut level t) : UnitsDump bs level dopts := by
  suffices ∀ ns : List NalUnit, (∀ n ∈ ns, ∃ t, n.fdump level bs.parsing_options = .val t ∧ LaidOut level t) →
      ∃ ts : List Text, ts.length = ns.length ∧ (∀ t ∈ ts, LaidOut level t ∧ "nal_unit {".toList <+: t) ∧
        ns.map (·.fdump level bs.parsing_options) = ts.map .val by
    obtain ⟨ts, h1, h2, h3⟩ := this bs.nal_units h
    exact ⟨ts, h1, h2, bitstream_fdump dopts h3⟩
  intro ns
  induction ns with
  | nil => intro _; exact ⟨[], rfl, by simp, rfl⟩
  | cons n ns ih =>
    intro h
    obtain ⟨t, h1, h2⟩ := h n (by simp)
    obtain ⟨ts, h3, h4, h5⟩ := ih fun m hm => h m (by simp [hm])
    refine ⟨t :: ts, by simp [h3], ?_, by simp [h1, h5]⟩
    intro u hu
    rcases List.mem_cons.mp hu with rfl | hu
    · refine ⟨h2, ?_⟩
      unfold NalUnit.fdump at h1
      exact block_prefix h1
    · exact h4 u hu

/-- C46, C53: what the functions that keep no state return can be dumped, whatever the input and the options, and each NAL unit is
well laid out.  Streams with start codes. -/
theorem C46_fresh {nd : Bool} {opts : ParsingOptions} {data : List UInt8} {c c' : Nat} (hl : data.length < 2 ^ 61)
    {bs : Bitstream} (hp : parseBitstreamFresh nd opts data c = .val (bs, c')) {level : Int} (hv : Level level)
    (dopts : ParsingOptions) : UnitsDump bs level dopts := by
  unfold parseBitstreamFresh at hp
  cases h : parseBitstream nd opts data {} c with
  | bad e => rw [h, Res.bad_bind] at hp; cases hp
  | val r =>
    obtain ⟨b, τ, c1⟩ := r
    rw [h, Res.val_bind] at hp
    simp only [Res.pure_eq, Res.val.injEq, Prod.mk.injEq] at hp
    rw [← hp.1]
    exact unitsDump fun n hn => C46_units .empty hl h hv n hn

/-- The same for streams with sizes. -/
theorem C46_fresh_length {nd : Bool} {opts : ParsingOptions} {data : List UInt8} {k c c' : Nat} (hl : data.length < 2 ^ 61)
    {bs : Bitstream} (hp : parseBitstreamNALULengthFresh nd opts data k c = .val (bs, c')) {level : Int} (hv : Level level)
    (dopts : ParsingOptions) : UnitsDump bs level dopts := by
  unfold parseBitstreamNALULengthFresh at hp
  cases h : parseBitstreamNALULength nd opts data k {} c with
  | bad e => rw [h, Res.bad_bind] at hp; cases hp
  | val r =>
    obtain ⟨b, τ, c1⟩ := r
    rw [h, Res.val_bind] at hp
    simp only [Res.pure_eq, Res.val.injEq, Prod.mk.injEq] at hp
    rw [← hp.1]
    exact unitsDump fun n hn => C46_units_length .empty hl h hv n hn

theorem stateful_options {nd : Bool} {opts : ParsingOptions} {data : List UInt8} {σ σ' : Store} {c c' : Nat} {bs : Bitstream}
    (hp : parseBitstream nd opts data σ c = .val (bs, σ', c')) : bs.parsing_options = {} := by
  unfold parseBitstream at hp
  cases h : findNaluIndices data with
  | bad e => rw [h, Res.bad_bind] at hp; cases hp
  | val ixs =>
    rw [h, Res.val_bind] at hp
    cases h : parseUnits nd opts data ixs σ c with
    | bad e => rw [h, Res.bad_bind] at hp; cases hp
    | val r =>
      rw [h, Res.val_bind] at hp
      simp only [Res.pure_eq, Res.val.injEq, Prod.mk.injEq] at hp
      rw [← hp.1]

theorem stateful_options_length {nd : Bool} {opts : ParsingOptions} {data : List UInt8} {σ σ' : Store} {k c c' : Nat}
    {bs : Bitstream} (hp : parseBitstreamNALULength nd opts data k σ c = .val (bs, σ', c')) : bs.parsing_options = {} := by
  unfold parseBitstreamNALULength at hp
  cases h : parseLengthLoop nd opts data k data.length 0 σ c with
  | bad e => rw [h, Res.bad_bind] at hp; cases hp
  | val r =>
    rw [h, Res.val_bind] at hp
    simp only [Res.pure_eq, Res.val.injEq, Prod.mk.injEq] at hp
    rw [← hp.1]

theorem fdump_first_bad {bs : Bitstream} {level : Int} (dopts : ParsingOptions) {n : NalUnit} {ns : List NalUnit} {e : Bad}
    (h : bs.nal_units = n :: ns) (hn : n.fdump level bs.parsing_options = .bad e) : bs.fdump level dopts = .bad e := by
  unfold Bitstream.fdump
  rw [h, List.map_cons, cat, hn]
  rfl

/-- C46 is false of the functions that keep a state between calls: what they return can be dumped if and only if it was parsed with
the option `add_checksum` or has no NAL units.  Otherwise dumping dereferences a null pointer, whatever options are given to
`fdump`. -/
theorem C46_stateful {σ σ' : Store} (hσ : Reachable σ) {nd : Bool} {opts : ParsingOptions} {data : List UInt8} {c c' : Nat}
    (hl : data.length < 2 ^ 61) {bs : Bitstream} (hp : parseBitstream nd opts data σ c = .val (bs, σ', c'))
    {level : Int} (hv : Level level) (dopts : ParsingOptions) :
    (opts.add_checksum = true ∨ bs.nal_units = [] → UnitsDump bs level dopts) ∧
    (opts.add_checksum = false → bs.nal_units ≠ [] → bs.fdump level dopts = .bad .nullDeref) := by
  have ho := stateful_options hp
  refine ⟨fun h => unitsDump fun n hn => ?_, fun h1 h2 => ?_⟩
  · rcases h with h | h
    · exact dumped (bitstream_shows (C36_reachable_valid hσ) hl hp n hn level _ (fun _ => h) hv)
    · rw [h] at hn; cases hn
  · cases hu : bs.nal_units with
    | nil => exact absurd hu h2
    | cons n ns =>
      refine fdump_first_bad dopts hu (fdump_no_checksum ?_ level (by rw [ho]))
      exact bitstream_all (P := fun n => n.checksum = none)
        (fun b _ _ _ _ _ _ _ _ _ _ hl h he => by have := parseNalUnit_no_checksum h1 hl h he; exact this) (C36_reachable_valid hσ) hl hp n
        (by rw [hu]; simp)

/-- The same for streams with sizes. -/
theorem C46_stateful_length {σ σ' : Store} (hσ : Reachable σ) {nd : Bool} {opts : ParsingOptions} {data : List UInt8} {k c c' : Nat}
    (hl : data.length < 2 ^ 61) {bs : Bitstream} (hp : parseBitstreamNALULength nd opts data k σ c = .val (bs, σ', c'))
    {level : Int} (hv : Level level) (dopts : ParsingOptions) :
    (opts.add_checksum = true ∨ bs.nal_units = [] → UnitsDump bs level dopts) ∧
    (opts.add_checksum = false → bs.nal_units ≠ [] → bs.fdump level dopts = .bad .nullDeref) := by
  have ho := stateful_options_length hp
  refine ⟨fun h => unitsDump fun n hn => ?_, fun h1 h2 => ?_⟩
  · rcases h with h | h
    · exact dumped (bitstreamNALULength_shows (C36_reachable_valid hσ) hl hp n hn level _ (fun _ => h) hv)
    · rw [h] at hn; cases hn
  · cases hu : bs.nal_units with
    | nil => exact absurd hu h2
    | cons n ns =>
      refine fdump_first_bad dopts hu (fdump_no_checksum ?_ level (by rw [ho]))
      exact bitstreamNALULength_all (P := fun n => n.checksum = none)
        (fun b _ _ _ _ _ _ _ _ _ _ hl h he => by have := parseNalUnit_no_checksum h1 hl h he; exact this) (C36_reachable_valid hσ) hl hp n
        (by rw [hu]; simp)

/-- C46: such a bitstream exists, an access unit delimiter. -/
theorem C46_stateful_witness (nd : Bool) : ∃ r, parseBitstream nd { add_checksum := false } [0, 0, 1, 0x09, 0x10] {} 0 = .val r ∧
    r.1.fdump 0 {} = .bad .nullDeref ∧ r.1.fdump 0 { add_checksum := false } = .bad .nullDeref ∧
    ∀ n ∈ r.1.nal_units, ∃ t, n.fdump 0 { add_checksum := false } = .val t := by
  have hr : ∃ r, parseBitstream nd { add_checksum := false } [0, 0, 1, 0x09, 0x10] {} 0 = .val r ∧ r.1.nal_units ≠ [] := by
    cases nd <;> exact exists_dec (by decide +kernel)
  obtain ⟨⟨bs, σ, c⟩, h, h2⟩ := hr
  refine ⟨_, h, ?_, ?_, ?_⟩
  · exact (C46_stateful .empty (by decide) h (.inr (by decide)) _).2 rfl h2
  · exact (C46_stateful .empty (by decide) h (.inr (by decide)) _).2 rfl h2
  · intro n hn
    obtain ⟨t, h, _⟩ := C46_units .empty (by decide) h (level := 0) (.inr (by decide)) n hn
    exact ⟨t, h⟩

/-! ### RTP packets -/

/-- C46, C53: what the RTP packet parsers return can be dumped, whatever the packet, the state and the options, and the dump is well
laid out. -/
theorem C46_packets {σ σ' : Store} (hσ : Reachable σ) {nd : Bool} {data : List UInt8} {off len c c' : Nat}
    (hl : data.length < 2 ^ 61) (h : off + len ≤ data.length) {level : Int} (hv : Level level) (dopts : ParsingOptions) :
    (∀ x, parseRtpData nd data off len σ c = .val (some x, σ', c') → ∃ t, x.fdump level dopts = .val t ∧ LaidOut level t) ∧
    (∀ x, parseRtpSingleData nd data off len σ c = .val (some x, σ', c') → ∃ t, x.fdump level dopts = .val t ∧ LaidOut level t) ∧
    (∀ x, parseRtpStapAData nd data off len σ c = .val (some x, σ', c') → ∃ t, x.fdump level dopts = .val t ∧ LaidOut level t) ∧
    (∀ ref x, parseRtpFuAData nd data off len ref σ c = .val (some x, σ', c') → ∃ t, x.fdump level dopts = .val t ∧ LaidOut level t) := by
  have hV := C36_reachable_valid hσ
  refine ⟨fun x he => ?_, fun x he => ?_, fun x he => ?_, fun ref x he => ?_⟩
  · have hx : x.Shows := onData_prop (P := Rtp.Shows) (f := parseRtp nd σ) h hl
      (fun s x σ' s' hb he => parseRtp_shows hV hb he) he
    exact dumped (hx level dopts hv)
  · have hx : x.Shows := onData_prop (P := RtpSingle.Shows) (f := runStore nd σ (parseRtpSingle σ)) h hl
      (fun s x σ' s' hb he => runStore_prop hb (fun _ _ _ _ h => rtpSingle_shows hV h) he) he
    exact dumped (hx level dopts hv)
  · have hx : x.Shows := onData_prop (P := RtpStapA.Shows) (f := parseRtpStapA nd σ) h hl
      (fun s x σ' s' hb he => parseRtpStapA_shows hV hb he) he
    exact dumped (hx level dopts hv)
  · have hx : x.Shows := onData_prop (P := RtpFuA.Shows) (f := runStore nd σ (parseRtpFuA σ ref)) h hl
      (fun s x σ' s' hb he => runStore_prop hb (fun _ _ _ _ h => rtpFuA_shows hV h) he) he
    exact dumped (hx level dopts hv)

/-- C46, C53: the same for the payload of a NAL unit; the type given to its `fdump` does not have to be the one it was parsed
with. -/
theorem C46_payload {σ σ' : Store} (hσ : Reachable σ) {nd : Bool} {hd : NalHeader} {data : List UInt8} {off len c c' : Nat}
    (hl : data.length < 2 ^ 61) (h : off + len ≤ data.length) (hn : ∀ e, hd.svc_extension = some e → e.Ok)
    {p : Payload} (he : parsePayloadData nd data off len hd σ c = .val (some p, σ', c'))
    {level : Int} (hv : Level level) (type : Nat) (dopts : ParsingOptions) :
    ∃ t, p.fdump level type dopts = .val t ∧ LaidOut level t := by
  have hV := C36_reachable_valid hσ
  have hx : p.Shows type := onData_prop (P := fun p => p.Shows type) (f := runStore nd σ (parsePayload σ hd)) h hl
    (fun s x σ' s' hb he => runStore_prop hb (fun _ _ _ _ h => payload_shows hV hn h type) he) he
  exact dumped (hx level dopts hv)

/-! ### Bitstreams on the page -/

/-- C46: the payload parser on an access unit delimiter, with the header of one. -/
example : ∃ r, parsePayloadData false [0x10] 0 1 { forbidden_zero_bit := 0, nal_ref_idc := 0, nal_unit_type := 9 } {} 0 = .val r ∧
    r.1.isSome := exists_dec (by decide +kernel)

theorem count_nl {ts : List Text} (h : ∀ t ∈ ts, '\n' ∉ t) : (ts.flatMap (· ++ ['\n'])).count '\n' = ts.length := by
  induction ts with
  | nil => rfl
  | cons t ts ih =>
    have h1 : t.count '\n' = 0 := List.count_eq_zero.mpr (h t (by simp))
    rw [List.flatMap_cons, List.count_append, List.count_append, h1, ih fun u hu => h u (by simp [hu])]
    simp; omega

theorem balanced_nl : Balanced ['\n'] := by
  refine ⟨by decide, fun a b e => ?_⟩
  cases a with
  | nil => decide
  | cons x a =>
    simp only [List.cons_append, List.cons.injEq] at e
    obtain ⟨rfl, e⟩ := e
    obtain ⟨rfl, _⟩ := List.append_eq_nil_iff.mp e.symm
    decide

theorem units_balanced {ts : List Text} (h : ∀ t ∈ ts, Balanced t) : Balanced (ts.flatMap (· ++ ['\n'])) := by
  induction ts with
  | nil => exact Plain.nil.balanced
  | cons t ts ih =>
    rw [List.flatMap_cons]
    exact ((h t (by simp)).append balanced_nl).append (ih fun u hu => h u (by simp [hu]))

/-- C53: dumped at level -1, a bitstream takes exactly one line for each NAL unit. -/
theorem C53_one_line {bs : Bitstream} {dopts : ParsingOptions} (h : UnitsDump bs (-1) dopts) :
    ∃ t, bs.fdump (-1) dopts = .val t ∧ Balanced t ∧ t.count '\n' = bs.nal_units.length := by
  obtain ⟨ts, h1, h2, h3⟩ := h
  exact ⟨_, h3, units_balanced fun t ht => (h2 t ht).1.balanced, by rw [count_nl fun t ht => (h2 t ht).1.oneLine rfl, h1]⟩

theorem indented_units {ts : List Text} (h : ∀ t ∈ ts, LaidOut 0 t ∧ "nal_unit {".toList <+: t) :
    Indented 0 (ts.flatMap (· ++ ['\n'])) := by
  induction ts with
  | nil => exact Indented.noNl (by simp)
  | cons t ts ih =>
    obtain ⟨hl, _⟩ := h t (by simp)
    have hd := hl.balanced.closed
    have hi := hl.indented (by decide)
    have ih := ih fun u hu => h u (by simp [hu])
    rw [List.flatMap_cons, List.append_assoc, List.singleton_append]
    have hnext : ∃ c rest, ts.flatMap (· ++ ['\n']) = rest ∧ rest.head? = c ∧ c ≠ some ' ' ∧ c ≠ some '}' := by
      cases ts with
      | nil => exact ⟨_, _, rfl, rfl, by simp, by simp⟩
      | cons u us =>
        obtain ⟨_, v, rfl⟩ := h u (by simp)
        exact ⟨some 'n', _, rfl, rfl, by decide, by decide⟩
    generalize ts.flatMap (· ++ ['\n']) = r at ih hnext ⊢
    intro a b e
    rcases List.append_eq_append_iff.mp e with ⟨u, rfl, hu⟩ | ⟨u, rfl, hu⟩
    · cases u with
      | nil =>
        simp only [List.nil_append, List.cons.injEq, true_and] at hu
        subst hu
        obtain ⟨c, rest, h1, h2, h3, h4⟩ := hnext
        subst h1
        refine ⟨0, r, by simp, by rw [h2]; exact h3, ?_⟩
        rw [h2, if_neg h4, List.append_nil, hd]; rfl
      | cons x u =>
        simp only [List.cons_append, List.cons.injEq] at hu
        obtain ⟨rfl, hu⟩ := hu
        obtain ⟨k, rest, h1, h2, h3⟩ := ih u b hu
        refine ⟨k, rest, h1, h2, ?_⟩
        rw [h3, depth_append, hd]
        have : depth ('\n' :: u) = depth u := by
          show depth (['\n'] ++ u) = _
          rw [depth_append, balanced_nl.closed, Int.zero_add]
        rw [this, Int.zero_add]
    · cases u with
      | nil =>
        simp only [List.nil_append, List.cons.injEq, true_and] at hu
        subst hu
        obtain ⟨c, rest, h1, h2, h3, h4⟩ := hnext
        subst h1
        refine ⟨0, b, by simp, by rw [h2]; exact h3, ?_⟩
        simp only [List.append_nil] at hd
        rw [h2, if_neg h4, hd]; rfl
      | cons x u =>
        simp only [List.cons_append, List.cons.injEq] at hu
        obtain ⟨rfl, rfl⟩ := hu
        obtain ⟨k, rest, h1, h2, h3⟩ := hi a u rfl
        subst h1
        cases rest with
        | nil =>
          refine ⟨k, '\n' :: r, by simp, by simp, ?_⟩
          rw [h3]; rfl
        | cons y rest =>
          refine ⟨k, y :: rest ++ '\n' :: r, by simp, by simpa using h2, ?_⟩
          rw [h3]; rfl

/-- C53: dumped at level 0, a bitstream is laid out as one text: every line is indented by the braces open there. -/
theorem C53_nested {bs : Bitstream} {dopts : ParsingOptions} (h : UnitsDump bs 0 dopts) :
    ∃ t, bs.fdump 0 dopts = .val t ∧ Balanced t ∧ Indented 0 t := by
  obtain ⟨ts, h1, h2, h3⟩ := h
  exact ⟨_, h3, units_balanced fun t ht => (h2 t ht).1.balanced, indented_units h2⟩

/-! ### Examples -/

/-- The dump of an access unit delimiter on one line. -/
example : ∃ r, parseBitstreamFresh false {} [0, 0, 1, 0x09, 0x10] 0 = .val r ∧
    r.1.fdump (-1) {} = .val ("nal_unit { offset: 0x00000003 length: 2 parsed_length: 0x00000001 checksum: 0xf6efffff " ++
      "nal_unit_header { forbidden_zero_bit: 0 nal_ref_idc: 0 nal_unit_type: 9 } nal_unit_payload {  } }\n").toList :=
  exists_dec (by decide +kernel)
/-- A picture parameter set with indentation. -/
example : ∃ r, parseBitstreamFresh false { add_checksum := false } [0, 0, 1, 0x68, 0xce, 0x31, 0xb2] 0 = .val r ∧
    r.1.fdump 0 {} = .val (([
      "nal_unit {",
      "  offset: 0x00000003",
      "  length: 4",
      "  parsed_length: 0x00000004",
      "  nal_unit_header {",
      "    forbidden_zero_bit: 0",
      "    nal_ref_idc: 3",
      "    nal_unit_type: 8",
      "  }",
      "  nal_unit_payload {",
      "    pps {",
      "      pic_parameter_set_id: 0",
      "      seq_parameter_set_id: 0",
      "      entropy_coding_mode_flag: 0",
      "      bottom_field_pic_order_in_frame_present_flag: 0",
      "      num_slice_groups_minus1: 0",
      "      num_ref_idx_l0_default_active_minus1: 0",
      "      num_ref_idx_l1_default_active_minus1: 0",
      "      weighted_pred_flag: 0",
      "      weighted_bipred_idc: 0",
      "      pic_init_qp_minus26: 0",
      "      pic_init_qs_minus26: 0",
      "      chroma_qp_index_offset: -6",
      "      deblocking_filter_control_present_flag: 1",
      "      constrained_intra_pred_flag: 0",
      "      redundant_pic_cnt_present_flag: 0",
      "      transform_8x8_mode_flag: 0",
      "      pic_scaling_matrix_present_flag: 0",
      "      pic_scaling_list_present_flag { }",
      "      ScalingList4x4 { }",
      "      UseDefaultScalingMatrix4x4Flag { }",
      "      ScalingList8x8 { }",
      "      UseDefaultScalingMatrix8x8Flag { }",
      "      delta_scale: 0",
      "      second_chroma_qp_index_offset: 0",
      "    }",
      "  }",
      "}"] : List String).flatMap fun s => s.toList ++ ['\n']) :=
  exists_dec (by decide +kernel)
/-- C46 and C53 on a whole stream: a sequence and a picture parameter set and two slices. -/
example : ∃ bs : Bitstream, bs.nal_units.length = 4 ∧ (∃ t, bs.fdump (-1) {} = .val t ∧ Balanced t ∧ t.count '\n' = 4) ∧
    (∃ t, bs.fdump 0 {} = .val t ∧ Balanced t ∧ Indented 0 t) := by
  have : ∃ r, parseBitstreamFresh false {} ex601 0 = .val r ∧ r.1.nal_units.length = 4 := exists_dec (by decide +kernel)
  obtain ⟨⟨bs, c⟩, h, h2⟩ := this
  refine ⟨bs, h2, ?_, C53_nested (C46_fresh (by decide) h (.inr (by decide)) _)⟩
  rw [← h2]
  exact C53_one_line (C46_fresh (by decide) h (.inl rfl) _)

end H264.Props
