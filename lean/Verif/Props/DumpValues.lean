import Verif.DumpUnits
import Verif.DumpGood
import Verif.Props.Dump
import Verif.Props.Prefix

/-
C60: the dump of what was parsed is exactly the text that the specification (Spec/DumpItems.lean) gives for it, member by
member with its value, and every such text can be read back: the names, the nesting and the values are recovered from the text
alone, at every indentation level.
-/

namespace H264.Props
open H264.Spec Shown

/-- The text `t` is item `i` at this level, and reading it back gives the names and values of the item. -/
structure Reads (level : Int) (t : Text) (i : Item) : Prop where
  text : t = Shown.text level i
  back : readBack t = some (node i)

/-- The same for items one after the other, each followed by the end of a line. -/
structure ReadsAll (level : Int) (t : Text) (is : List Item) : Prop where
  text : t = is.flatMap fun i => Shown.text level i ++ ['\n']
  back : readBack t = some (is.flatMap node)

theorem reads {level : Int} {i : Item} (h : Good i) : Reads level (Shown.text level i) i := ⟨rfl, read_text level i h⟩

/-- C60 (partial: see `C60_cpb_size_scale_hidden`, `C60_prefix_flag_hidden` and `C60_negative_offset` for members that are not shown or
not shown as they are): a NAL unit.  `ParseNalUnit` on `len` bytes at `off` returned `n`; its dump is the text of `nalUnitItem`.  The dump may
ask for the checksum only if the parser was asked for it. -/
theorem C60_nal_unit_partial {σ σ' : Store} (hσ : Reachable σ) {nd : Bool} {opts : ParsingOptions} {data : List UInt8}
    {off len c c' : Nat} (hl : data.length < 2 ^ 61) (h : off + len ≤ data.length) {n : NalUnit}
    (he : parseNalUnit nd opts data off len σ c = .val (some n, σ', c')) {level : Int} (hv : Level level)
    {dopts : ParsingOptions} (hc : dopts.add_checksum = true → opts.add_checksum = true) :
    ∃ t, n.fdump level dopts = .val t ∧
      Reads level t (nalUnitItem σ dopts (withoutEmulation ((data.drop off).take len)) n) := by
  have hd := (parseNalUnit_draws (C36_reachable_valid hσ) hl h he n.offset n.length).1
  refine ⟨_, hd level dopts (fun hx => ?_) hv, reads (nalUnit_good σ dopts _ n)⟩
  refine ⟨hc hx, ?_⟩
  have := strip_length ((data.drop off).take len)
  rw [strip_eq] at this
  have h3 : ((data.drop off).take len).length ≤ len := by rw [List.length_take]; omega
  omega

theorem unitsText_reads (opts : ParsingOptions) (bytes : NalUnit → List UInt8) (level : Int) (σ : Store) (ns : List NalUnit) :
    ReadsAll level (unitsText opts bytes level σ ns) (nalUnitItems opts bytes σ ns) :=
  ⟨rfl, read_texts level _ (nalUnits_good opts bytes σ ns)⟩

theorem bitstream_fdump_units (bs : Bitstream) (level : Int) (dopts : ParsingOptions) :
    bs.fdump level dopts = cat (bs.nal_units.map fun n => cat [n.fdump level bs.parsing_options, .val ['\n']]) := rfl

/-- C60: a whole stream with start codes, parsed without a state, dumped with the options it was parsed with. -/
theorem C60_bitstream_partial {nd : Bool} {opts : ParsingOptions} {data : List UInt8} {c c' : Nat} (hl : data.length < 2 ^ 61)
    {bs : Bitstream}
    (hp : parseBitstreamFresh nd opts data c = .val (bs, c')) {level : Int} (hv : Level level) (dopts : ParsingOptions) :
    ∃ t, bs.fdump level dopts = .val t ∧ ReadsAll level t (nalUnitItems opts (bytesIn data) {} bs.nal_units) := by
  unfold parseBitstreamFresh at hp
  cases h : parseBitstream nd opts data {} c with
  | bad e => rw [h, Res.bad_bind] at hp; cases hp
  | val r =>
    obtain ⟨b, τ, c1⟩ := r
    rw [h, Res.val_bind] at hp
    simp only [Res.pure_eq, Res.val.injEq, Prod.mk.injEq] at hp
    rw [← hp.1, bitstream_fdump_units]
    exact ⟨_, (bitstream_draws (C36_reachable_valid .empty) hl h).text
      (fun hx => ⟨hx, fun n _ => by have := bytesIn_length data n; omega⟩) hv, unitsText_reads _ _ _ _ _⟩

/-- C60: the same for streams with sizes of `k` bytes. -/
theorem C60_bitstream_length_partial {nd : Bool} {opts : ParsingOptions} {data : List UInt8} {k c c' : Nat} (hl : data.length < 2 ^ 61)
    {bs : Bitstream}
    (hp : parseBitstreamNALULengthFresh nd opts data k c = .val (bs, c')) {level : Int} (hv : Level level) (dopts : ParsingOptions) :
    ∃ t, bs.fdump level dopts = .val t ∧ ReadsAll level t (nalUnitItems opts (bytesAfterSize data k) {} bs.nal_units) := by
  unfold parseBitstreamNALULengthFresh at hp
  cases h : parseBitstreamNALULength nd opts data k {} c with
  | bad e => rw [h, Res.bad_bind] at hp; cases hp
  | val r =>
    obtain ⟨b, τ, c1⟩ := r
    rw [h, Res.val_bind] at hp
    simp only [Res.pure_eq, Res.val.injEq, Prod.mk.injEq] at hp
    rw [← hp.1, bitstream_fdump_units]
    exact ⟨_, (bitstreamNALULength_draws (C36_reachable_valid .empty) hl h).text
      (fun hx => ⟨hx, fun n _ => by have := bytesAfterSize_length data k n; omega⟩) hv, unitsText_reads _ _ _ _ _⟩

/-- C60: the same for streams parsed with a state.  What is returned has the default options, whatever those of the call, so the
checksums are shown and must have been asked for (C46_stateful). -/
theorem C60_bitstream_state_partial {σ σ' : Store} (hσ : Reachable σ) {nd : Bool} {opts : ParsingOptions} {data : List UInt8} {c c' : Nat}
    (hc : opts.add_checksum = true) (hl : data.length < 2 ^ 61) {level : Int} (hv : Level level) (dopts : ParsingOptions) :
    (∀ bs, parseBitstream nd opts data σ c = .val (bs, σ', c') →
      ∃ t, bs.fdump level dopts = .val t ∧ ReadsAll level t (nalUnitItems {} (bytesIn data) σ bs.nal_units)) ∧
    (∀ k bs, parseBitstreamNALULength nd opts data k σ c = .val (bs, σ', c') →
      ∃ t, bs.fdump level dopts = .val t ∧ ReadsAll level t (nalUnitItems {} (bytesAfterSize data k) σ bs.nal_units)) := by
  have hV := C36_reachable_valid hσ
  refine ⟨fun bs hp => ?_, fun k bs hp => ?_⟩
  · rw [bitstream_fdump_units, stateful_options hp]
    exact ⟨_, (bitstream_draws hV (by omega) hp).text
      (fun _ => ⟨hc, fun n _ => by have := bytesIn_length data n; omega⟩) hv, unitsText_reads _ _ _ _ _⟩
  · rw [bitstream_fdump_units, stateful_options_length hp]
    exact ⟨_, (bitstreamNALULength_draws hV (by omega) hp).text
      (fun _ => ⟨hc, fun n _ => by have := bytesAfterSize_length data k n; omega⟩) hv, unitsText_reads _ _ _ _ _⟩

/-- C60: RTP packets and the payloads of NAL units. -/
theorem C60_packets_partial {σ σ' : Store} (hσ : Reachable σ) {nd : Bool} {data : List UInt8} {off len c c' : Nat}
    (hl : data.length < 2 ^ 61) (h : off + len ≤ data.length) {level : Int} (hv : Level level) (dopts : ParsingOptions) :
    (∀ x, parseRtpData nd data off len σ c = .val (some x, σ', c') →
      ∃ t, x.fdump level dopts = .val t ∧ Reads level t (rtpItem σ dopts x)) ∧
    (∀ x, parseRtpSingleData nd data off len σ c = .val (some x, σ', c') →
      ∃ t, x.fdump level dopts = .val t ∧ Reads level t (rtpSingleItem σ dopts x)) ∧
    (∀ x, parseRtpStapAData nd data off len σ c = .val (some x, σ', c') →
      ∃ t, x.fdump level dopts = .val t ∧ Reads level t (stapAItem σ dopts x)) ∧
    (∀ ref x, parseRtpFuAData nd data off len ref σ c = .val (some x, σ', c') →
      ∃ t, x.fdump level dopts = .val t ∧ Reads level t (fuAItem σ dopts ref x)) := by
  have hV := C36_reachable_valid hσ
  refine ⟨fun x he => ?_, fun x he => ?_, fun x he => ?_, fun ref x he => ?_⟩
  · have hx := onData_prop (P := fun x => DrawsOne level (x.fdump level dopts) (rtpItem σ dopts x)) (f := parseRtp nd σ) h hl
      (fun s x σ' s' hb he => parseRtp_draws hV hb he dopts hv) he
    exact ⟨_, hx, reads (rtp_good σ dopts x)⟩
  · have hx := onData_prop (P := fun x => DrawsOne level (x.fdump level dopts) (rtpSingleItem σ dopts x))
      (f := runStore nd σ (parseRtpSingle σ)) h hl
      (fun s x σ' s' hb he => runStore_prop (P := fun x => DrawsOne level (x.fdump level dopts) (rtpSingleItem σ dopts x)) hb (fun _ _ _ _ h => rtpSingle_draws hV h dopts hv) he) he
    exact ⟨_, hx, reads (rtpSingle_good σ dopts x)⟩
  · have hx := onData_prop (P := fun x => DrawsOne level (x.fdump level dopts) (stapAItem σ dopts x)) (f := parseRtpStapA nd σ) h hl
      (fun s x σ' s' hb he => parseRtpStapA_draws hV hb he dopts hv) he
    exact ⟨_, hx, reads (stapA_good σ dopts x)⟩
  · have hx := onData_prop (P := fun x => DrawsOne level (x.fdump level dopts) (fuAItem σ dopts ref x))
      (f := runStore nd σ (parseRtpFuA σ ref)) h hl
      (fun s x σ' s' hb he => runStore_prop (P := fun x => DrawsOne level (x.fdump level dopts) (fuAItem σ dopts ref x)) hb (fun _ _ _ _ h => rtpFuA_draws hV h dopts hv) he) he
    exact ⟨_, hx, reads (fuA_good σ dopts ref x)⟩

/-- C60: equal dumps show the same names and values, even if they were made at different levels. -/
theorem C60_equal_dumps {l m : Int} {t : Text} {i j : Item} (hi : Reads l t i) (hj : Reads m t j) : node i = node j :=
  Option.some.inj (hi.back.symm.trans hj.back)

/-! ### The theorems on real streams -/

/-- The stream of h264_bitstream_parser_unittest.cc, dumped on one line: four NAL units. -/
example : ∃ r, parseBitstreamFresh false {} ex601 0 = .val r ∧ r.1.nal_units.length = 4 ∧
    ∃ t, r.1.fdump (-1) {} = .val t ∧ ReadsAll (-1) t (nalUnitItems {} (bytesIn ex601) {} r.1.nal_units) := by
  have h : ∃ r, parseBitstreamFresh false {} ex601 0 = .val r ∧ r.1.nal_units.length = 4 := exists_dec (by decide +kernel)
  obtain ⟨⟨bs, c⟩, h1, h2⟩ := h
  exact ⟨_, h1, h2, C60_bitstream_partial (by decide) h1 (.inl rfl) _⟩

/-- The same with sizes, and with a state. -/
example : ∃ r, parseBitstreamNALULengthFresh false {} [2, 0x09, 0x10, 1, 0x0a] 1 0 = .val r ∧ r.1.nal_units.length = 2 ∧
    ∃ t, r.1.fdump 1 {} = .val t ∧ ReadsAll 1 t (nalUnitItems {} (bytesAfterSize [2, 0x09, 0x10, 1, 0x0a] 1) {} r.1.nal_units) := by
  have h : ∃ r, parseBitstreamNALULengthFresh false {} [2, 0x09, 0x10, 1, 0x0a] 1 0 = .val r ∧ r.1.nal_units.length = 2 :=
    exists_dec (by decide +kernel)
  obtain ⟨⟨bs, c⟩, h1, h2⟩ := h
  exact ⟨_, h1, h2, C60_bitstream_length_partial (by decide) h1 (.inr (by decide)) _⟩

example : ∃ r, parseBitstream false {} ex601 {} 0 = .val r ∧
    ∃ t, r.1.fdump 0 {} = .val t ∧ ReadsAll 0 t (nalUnitItems {} (bytesIn ex601) {} r.1.nal_units) := by
  have h : ∃ r, parseBitstream false {} ex601 {} 0 = .val r ∧ r.1.nal_units.length = 4 := exists_dec (by decide +kernel)
  obtain ⟨⟨bs, σ, c⟩, h1, h2⟩ := h
  exact ⟨_, h1, (C60_bitstream_state_partial .empty rfl (by decide) (.inr (by decide)) _).1 _ h1⟩

/-- An SPS as a NAL unit and as an RTP packet. -/
example : ∃ r, parseNalUnit false {} exSpsPacket 0 24 {} 0 = .val r ∧ ∃ n, r.1 = some n ∧ ∃ t, n.fdump 2 {} = .val t ∧
    Reads 2 t (nalUnitItem {} {} (withoutEmulation ((exSpsPacket.drop 0).take 24)) n) := by
  have h : ∃ r, parseNalUnit false {} exSpsPacket 0 24 {} 0 = .val r ∧ r.1.isSome = true := exists_dec (by decide +kernel)
  obtain ⟨⟨n, σ, c⟩, h1, h2⟩ := h
  obtain ⟨n, rfl⟩ := Option.isSome_iff_exists.mp h2
  exact ⟨_, h1, n, rfl, C60_nal_unit_partial .empty (by decide) (by decide) h1 (.inr (by decide)) fun _ => rfl⟩

example : ∃ r, parseRtpData false exSpsPacket 0 24 {} 0 = .val r ∧ ∃ x, r.1 = some x ∧ ∃ t, x.fdump 0 {} = .val t ∧
    Reads 0 t (rtpItem {} {} x) := by
  have h : ∃ r, parseRtpData false exSpsPacket 0 24 {} 0 = .val r ∧ r.1.isSome = true := exists_dec (by decide +kernel)
  obtain ⟨⟨n, σ, c⟩, h1, h2⟩ := h
  obtain ⟨n, rfl⟩ := Option.isSome_iff_exists.mp h2
  exact ⟨_, h1, n, rfl, (C60_packets_partial .empty (by decide) (by decide) (.inr (by decide)) _).1 n h1⟩

/-- An access unit delimiter, spelled out. -/
example : ∃ r, parseBitstreamFresh false {} [0, 0, 1, 0x09, 0x10] 0 = .val r ∧ r.1.fdump (-1) {} = .val
    ("nal_unit { offset: 0x00000003 length: 2 ".toList ++ "parsed_length: 0x00000001 checksum: 0xf6efffff ".toList ++
     "nal_unit_header { forbidden_zero_bit: 0 ".toList ++ "nal_ref_idc: 0 nal_unit_type: 9 } ".toList ++
     "nal_unit_payload {  } }\n".toList) := exists_dec (by decide +kernel)

/-! ### What is not shown -/

/-- An SPS whose HRD parameters have cpb_size_scale `v`. -/
def exScaled (v : Nat) : SpsSyn :=
  { exSps with tail := { exSps.tail with vui_parameters := some { exVui with vcl_hrd_parameters := some { exHrd with cpb_size_scale := v } } } }

theorem scaled_dump (v w : Nat) (level : Int) (dopts : ParsingOptions) :
    ({ sps := some (exScaled v).state } : Payload).fdump level 7 dopts = ({ sps := some (exScaled w).state } : Payload).fdump level 7 dopts := rfl

/-- C60: cpb_size_scale is not shown.  Two SPS NAL units whose parsed contents differ and whose dumps are the same. -/
theorem C60_cpb_size_scale_hidden (nd : Bool) : ∃ d e : List UInt8, ∃ m n : NalUnit, ∃ σ τ,
    parseNalUnit nd {} d 0 d.length {} 0 = .val (some m, σ, 0) ∧ parseNalUnit nd {} e 0 e.length {} 0 = .val (some n, τ, 0) ∧
    m.nal_unit_payload ≠ n.nal_unit_payload ∧
    ∀ level dopts, m.nal_unit_payload.fdump level 7 dopts = n.nal_unit_payload.fdump level 7 dopts := by
  have h : ∀ v ∈ [3, 4], ∃ r, parseNalUnit nd {} (escapeNal (exRbsp (exHdr 3 7) (encSps (exScaled v)) 0)) 0
      (escapeNal (exRbsp (exHdr 3 7) (encSps (exScaled v)) 0)).length {} 0 = .val r ∧
      (r.1.map (·.nal_unit_payload) = some { sps := some (exScaled v).state } ∧ r.2.2 = 0) := by
    intro v hv
    simp only [List.mem_cons, List.not_mem_nil, or_false] at hv
    rcases hv with rfl | rfl <;> cases nd <;> exact exists_dec (by decide +kernel)
  obtain ⟨⟨m, σ, c⟩, h1, h2, rfl⟩ := h 3 (by simp)
  obtain ⟨⟨n, τ, c⟩, h3, h4, rfl⟩ := h 4 (by simp)
  cases m with
  | none => cases h2
  | some m =>
    cases n with
    | none => cases h4
    | some n =>
      simp only [Option.map_some, Option.some.injEq] at h2 h4
      refine ⟨_, _, m, n, σ, τ, h1, h3, ?_, ?_⟩
      · rw [h2, h4]; decide +kernel
      · intro level dopts
        rw [h2, h4]
        exact scaled_dump 3 4 level dopts

/-- The payload of a prefix NAL unit whose additional_prefix_nal_unit_extension_flag is `f`. -/
def exFlagged (f : Nat) : Payload :=
  { prefix_nal_unit := some { svc_extension_flag := 1, nal_ref_idc := 3, use_ref_base_pic_flag := 0, idr_flag := 1,
                              prefix_nal_unit_svc := some { nal_ref_idc := 3, use_ref_base_pic_flag := 0, idr_flag := 1,
                                                            additional_prefix_nal_unit_extension_flag := f } } }

/-- C60: nor is additional_prefix_nal_unit_extension_flag. -/
theorem C60_prefix_flag_hidden (nd : Bool) : ∃ d e : List UInt8, ∃ m n : NalUnit, ∃ σ τ,
    parseNalUnit nd {} d 0 d.length {} 0 = .val (some m, σ, 0) ∧ parseNalUnit nd {} e 0 e.length {} 0 = .val (some n, τ, 0) ∧
    m.nal_unit_payload ≠ n.nal_unit_payload ∧
    ∀ level dopts, m.nal_unit_payload.fdump level 14 dopts = n.nal_unit_payload.fdump level 14 dopts := by
  have h : ∀ b ∈ [(0x20, 0), (0x60, 1)], ∃ r, parseNalUnit nd {} [0x6e, 0xc0, 0x80, 0x0f, b.1] 0 5 {} 0 = .val r ∧
      (r.1.map (·.nal_unit_payload) = some (exFlagged b.2) ∧ r.2.2 = 0) := by
    intro b hb
    simp only [List.mem_cons, List.not_mem_nil, or_false] at hb
    rcases hb with rfl | rfl <;> cases nd <;> exact exists_dec (by decide +kernel)
  obtain ⟨⟨m, σ, c⟩, h1, h2, rfl⟩ := h _ (List.mem_cons_self ..)
  obtain ⟨⟨n, τ, c⟩, h3, h4, rfl⟩ := h (0x60, 1) (by simp)
  cases m with
  | none => cases h2
  | some m =>
    cases n with
    | none => cases h4
    | some n =>
      simp only [Option.map_some, Option.some.injEq] at h2 h4
      refine ⟨_, _, m, n, σ, τ, h1, h3, ?_, ?_⟩
      · rw [h2, h4]; decide +kernel
      · intro level dopts
        rw [h2, h4]
        rfl

/-- C60: a negative deblocking offset is shown as a large positive number: -6 as 4294967290. -/
theorem C60_negative_offset (nd : Bool) : ∃ r, parseBitstreamFresh nd {} (annexB exStreamUnits) 0 = .val r ∧
    ∃ n ∈ r.1.nal_units, ∃ x, (n.nal_unit_payload.slice_layer_without_partitioning_rbsp.bind (·.slice_header)) = some x ∧
      x.slice_beta_offset_div2 = -6 ∧ ∃ t, x.fdump (-1) = .val t ∧
      "slice_beta_offset_div2: 4294967290 slice_group_change_cycle: 82 }".toList <:+ t := by
  have h : ∃ r, parseBitstreamFresh nd {} (annexB exStreamUnits) 0 = .val r ∧
      r.1.nal_units[3]?.bind (fun n => n.nal_unit_payload.slice_layer_without_partitioning_rbsp.bind (·.slice_header)) =
        some exSlice := by
    cases nd <;> exact exists_dec (by decide +kernel)
  have h2 : ∃ t, exSlice.fdump (-1) = .val t ∧ "slice_beta_offset_div2: 4294967290 slice_group_change_cycle: 82 }".toList <:+ t :=
    exists_dec (by decide +kernel)
  obtain ⟨r, h1, h3⟩ := h
  cases hn : r.1.nal_units[3]? with
  | none => rw [hn] at h3; cases h3
  | some n =>
    rw [hn] at h3
    exact ⟨r, h1, n, List.mem_of_getElem? hn, exSlice, h3, rfl, h2⟩

end H264.Props
