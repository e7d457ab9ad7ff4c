import Verif.CountLayer
import Verif.Spec.Counter
import Verif.Props.StapA
import Verif.Props.Common
import Verif.Props.Stream
import Verif.Props.Rtp

/-
Property C56: the counter of unimplemented syntax.
-/

namespace H264.Props
open Prog Spec

/-- What the parser of a prefix NAL unit does to the counter. -/
theorem prefix_counter (nd : Bool) {r use idr : Nat} (hu : use < 2) (l : List Bool) (c : Nat) :
    match runL nd (parsePrefixRbsp 1 r use idr) ⟨l, c⟩ with
    | .ok _ s => s.cnt = c ∧ ¬ (r ≠ 0 ∧ idr = 0 ∧ ∃ b t, l = b :: t ∧ (use = 1 ∨ b = true))
    | .null s => (s.cnt = c ∧ ¬ (r ≠ 0 ∧ idr = 0 ∧ ∃ b t, l = b :: t ∧ (use = 1 ∨ b = true))) ∨
        (s.cnt = c + 1 ∧ (r ≠ 0 ∧ idr = 0 ∧ ∃ b t, l = b :: t ∧ (use = 1 ∨ b = true)))
    | .bad _ => True := by
  unfold parsePrefixRbsp
  rw [runL_bind]
  unfold Prog.opt
  rw [if_pos rfl, runL_bind]
  unfold parsePrefixSvc
  by_cases hr : r ≠ 0
  · rw [if_pos hr, runL_bind]
    cases l with
    | nil =>
      rw [runL_u_gt nd (by simp)]
      simp [Out.bind]
    | cons b t =>
      rw [runL_u_le nd (by omega) (by omega) (by simp)]
      have hv : bitsVal (List.take 1 (b :: t)) = if b = true then 1 else 0 := by cases b <;> rfl
      rw [hv]
      simp only [Out.bind, List.drop_succ_cons, List.drop_zero]
      have key : (((use ≠ 0 ∨ (if b = true then 1 else 0) ≠ 0) ∧ idr = 0) ↔
          (r ≠ 0 ∧ idr = 0 ∧ ∃ b' t', b :: t = b' :: t' ∧ (use = 1 ∨ b' = true))) := by
        constructor
        · rintro ⟨h1, h2⟩
          refine ⟨hr, h2, b, t, rfl, ?_⟩
          rcases h1 with h1 | h1
          · left; omega
          · right; cases b <;> simp_all
        · rintro ⟨_, h2, b', t', h3, h1⟩
          cases h3
          refine ⟨?_, h2⟩
          rcases h1 with h1 | h1
          · left; omega
          · right; simp [h1]
      by_cases hc : (use ≠ 0 ∨ (if b = true then 1 else 0) ≠ 0) ∧ idr = 0
      · rw [if_pos hc]
        have hc' := key.mp hc
        simp only [runL_bind, runL_unimpl, Out.bind, runL_null]
        exact .inr ⟨trivial, hc'⟩
      · rw [if_neg hc]
        have hc' := fun h => hc (key.mpr h)
        have hk : KeepsCnt parsePrefixExt := by
          unfold parsePrefixExt parsePrefixExtData
          have := keeps_ext2Loop
          keepscnt
        have := hk nd ⟨t, c⟩
        rw [runL_bind]
        revert this
        cases runL nd parsePrefixExt ⟨t, c⟩ with
        | bad e => simp [Out.bind]
        | ok a s => simp only [Out.bind, pure_eq, runL_ret]; intro h; exact ⟨h, hc'⟩
        | null s => simp only [Out.bind]; intro h; exact .inl ⟨h, hc'⟩
  · rw [if_neg hr]
    simp only [pure_eq, runL_ret, Out.bind]
    exact ⟨trivial, fun h => hr h.1⟩

/-- Which payload a NAL unit has that raised the counter. -/
theorem payload_counted {nd : Bool} {σ σ' : Store} {h : NalHeader} (ho : h.Ok) {s s' : LSt} {p : Payload}
    (hp : runL nd (parsePayload σ h) s = .ok (p, σ') s') (hc : ¬ Complete h.nal_unit_type p)
    (ht : h.nal_unit_type = 14 ∨ h.nal_unit_type = 20) :
    (h.nal_unit_type = 14 ∧ p = {}) ∨ (h.nal_unit_type = 20 ∧ ∃ x, p = { slice_layer_extension_rbsp := some x } ∧
      x.slice_header_in_scalable_extension = none ∧ x.slice_header = none) := by
  rw [runL_payload, if_neg (by omega), if_neg (by omega), if_neg (by omega)] at hp
  have hext := ho.ext
  rw [if_pos ht] at hext
  rcases ht with ht | ht
  · refine .inl ⟨ht, ?_⟩
    rw [if_pos ht] at hp
    revert hp
    cases runL nd (parsePrefixPayload h) s with
    | bad e => simp
    | null s1 => simp
    | ok a s1 =>
      simp only [Out.ok.injEq, Prod.mk.injEq]
      rintro ⟨⟨rfl, _⟩, _⟩
      cases a with
      | none => rfl
      | some x =>
        refine absurd ⟨?_, ?_⟩ hc
        · simp [Payload.isPayloadParsed, ht]
        · intro _ h20; omega
  · refine .inr ⟨ht, ?_⟩
    rw [if_neg (by omega), if_neg (by omega), if_pos ht] at hp
    unfold parseSliceLayerExt at hp
    dsimp only at hp
    rw [if_pos (by omega), runL_bind, runL_attempt] at hp
    revert hp
    cases runL nd (parseScalHeader σ h) s with
    | bad e => simp [Out.bind]
    | ok a s1 =>
      simp only [Out.bind, pure_eq, runL_ret, Out.ok.injEq, Prod.mk.injEq]
      rintro ⟨⟨rfl, _⟩, _⟩
      refine absurd ⟨?_, ?_⟩ hc
      · simp [Payload.isPayloadParsed, ht]
      · intro x _ hx; cases hx; exact .inr rfl
    | null s1 =>
      simp only [Out.bind, pure_eq, runL_ret, Out.ok.injEq, Prod.mk.injEq]
      rintro ⟨⟨rfl, _⟩, _⟩
      exact ⟨_, rfl, rfl, rfl⟩

/-- C56: parsing a NAL unit leaves the counter as it is or counts one piece of unimplemented syntax.  If it counts one, the unit
is not returned, or it is returned without its payload (a prefix NAL unit) or without its slice header (a slice of an enhancement
layer). -/
theorem C56_at_most_once {nd : Bool} {data : List UInt8} {off len : Nat} (h : off + len ≤ data.length)
    (hl : data.length < 2 ^ 61) {opts : ParsingOptions} {σ σ' : Store} {c c' : Nat} {n : Option NalUnit}
    (he : parseNalUnit nd opts data off len σ c = .val (n, σ', c')) :
    c' = c ∨ c' = c + 1 ∧
      ∀ u, n = some u → (u.nal_unit_header.nal_unit_type = 14 ∧ u.nal_unit_payload = {}) ∨
        (u.nal_unit_header.nal_unit_type = 20 ∧ ∃ x, u.nal_unit_payload = { slice_layer_extension_rbsp := some x } ∧
          x.slice_header_in_scalable_extension = none ∧ x.slice_header = none) := by
  rcases nalUnitL_cases (parseNalUnit_val h hl he) with ⟨rfl, _, s, h1, rfl⟩ | ⟨hd, s, p, s', rfl, h1, h2, rfl⟩
  · have := counts_nalHeader nd ⟨allBits (strip ((data.drop off).take len)), c⟩
    rw [h1] at this
    rcases this with this | this
    · exact .inl this
    · exact .inr ⟨this, by simp⟩
  · have hk := counts_nalHeader nd ⟨allBits (strip ((data.drop off).take len)), c⟩
    rw [h1] at hk
    dsimp only at hk
    obtain ⟨ho, _⟩ := (codec_nalHeader nd _ _ _ _).mp h1
    rcases (payload_counter nd σ σ' hd s s' p h2).1 with h3 | ⟨h3, h4, h5⟩
    · exact .inl (by omega)
    · refine .inr ⟨by omega, ?_⟩
      intro u hu
      cases hu
      exact payload_counted ho h2 h5 h4

/-- C56: which NAL units are counted: exactly those whose header announces an MVC or 3D-AVC extension (`Unsupported`), prefix
NAL units with dec_ref_base_pic_marking() (`PrefixMarking`) and slices of an enhancement layer with dec_ref_base_pic_marking() in
their slice header (`LayerMarking`). -/
theorem C56_counted_iff {nd : Bool} {data : List UInt8} {off len : Nat} (h : off + len ≤ data.length)
    (hl : data.length < 2 ^ 61) {opts : ParsingOptions} {σ σ' : Store} (hσ : Reachable σ) {c c' : Nat} {n : Option NalUnit}
    (he : parseNalUnit nd opts data off len σ c = .val (n, σ', c')) :
    c' = c + 1 ↔ Unsupported (allBits (withoutEmulation ((data.drop off).take len))) ∨
      PrefixMarking (allBits (withoutEmulation ((data.drop off).take len))) ∨
      LayerMarking σ (allBits (withoutEmulation ((data.drop off).take len))) := by
  have hv := parseNalUnit_val h hl he
  revert hv
  rw [← strip_eq]
  generalize strip ((data.drop off).take len) = bytes
  intro hv
  have hh := nalHeader_counter nd (allBits bytes) c
  rcases nalUnitL_cases hv with ⟨rfl, _, s, h1, rfl⟩ | ⟨hd, s, p, s', rfl, h1, h2, rfl⟩
  · rw [h1] at hh
    by_cases hu : Unsupported (allBits bytes)
    · obtain ⟨r, hr⟩ := hh.1 hu
      cases hr
      exact ⟨fun _ => .inl hu, fun _ => rfl⟩
    · have := hh.2 hu
      dsimp only at this
      refine ⟨fun h => by omega, ?_⟩
      rintro (h | ⟨hd, e, st, rest, ho, _, _, _, _, _, hb⟩ | ⟨hd, rest, ho, _, _, hb⟩)
      · exact absurd h hu
      · rw [hb, codec_nalHeader.parse_append nd ho] at h1
        cases h1
      · rw [hb, codec_nalHeader.parse_append nd ho] at h1
        cases h1
  · rw [h1] at hh
    have hu : ¬ Unsupported (allBits bytes) := by
      intro hu
      obtain ⟨r, hr⟩ := hh.1 hu
      cases hr
    have h0 := hh.2 hu
    dsimp only at h0
    obtain ⟨ho, r, hb, rfl⟩ := (codec_nalHeader nd _ _ _ _).mp h1
    have hext := ho.ext
    have key : PrefixMarking (allBits bytes) ↔ hd.nal_unit_type = 14 ∧ hd.nal_ref_idc ≠ 0 ∧ ∃ e, hd.svc_extension = some e ∧
        e.idr_flag = 0 ∧ ∃ b t, r = b :: t ∧ (e.use_ref_base_pic_flag = 1 ∨ b = true) := by
      constructor
      · rintro ⟨hd', e, st, rest, ho', a1, a2, a3, a4, a5, hb'⟩
        rw [hb', codec_nalHeader.parse_append nd ho'] at h1
        cases h1
        exact ⟨a1, a2, e, a3, a4, st, rest, rfl, a5⟩
      · rintro ⟨a1, a2, e, a3, a4, b, t, rfl, a5⟩
        exact ⟨hd, e, b, t, ho, a1, a2, a3, a4, a5, hb⟩
    have keyL : LayerMarking σ (allBits bytes) ↔ hd.nal_unit_type = 20 ∧ HeaderMarking σ hd r := by
      constructor
      · rintro ⟨hd', rest, ho', a1, a2, hb'⟩
        rw [hb', codec_nalHeader.parse_append nd ho'] at h1
        cases h1
        exact ⟨a1, a2⟩
      · rintro ⟨a1, a2⟩
        exact ⟨hd, r, ho, a1, a2, hb⟩
    have hp := payload_counter nd σ σ' hd ⟨r, c⟩ s' p h2
    by_cases ht : hd.nal_unit_type = 14
    · rw [if_pos (Or.inl ht)] at hext
      obtain ⟨hf, e, hse, heo⟩ := hext
      rw [runL_payload, if_neg (by omega), if_neg (by omega), if_neg (by omega), if_pos ht] at h2
      unfold parsePrefixPayload at h2
      rw [if_pos (by omega), hse] at h2
      dsimp only at h2
      rw [runL_attempt, hf] at h2
      have hpc := prefix_counter nd (r := hd.nal_ref_idc) (idr := e.idr_flag) heo.use_ref_base_pic_flag r c
      have key2 : (hd.nal_ref_idc ≠ 0 ∧ e.idr_flag = 0 ∧ ∃ b t, r = b :: t ∧ (e.use_ref_base_pic_flag = 1 ∨ b = true)) ↔
          Unsupported (allBits bytes) ∨ PrefixMarking (allBits bytes) ∨ LayerMarking σ (allBits bytes) := by
        rw [key, keyL]
        constructor
        · rintro ⟨b1, b2, b3⟩; exact .inr (.inl ⟨ht, b1, e, hse, b2, b3⟩)
        · rintro (b1 | ⟨_, b1, e', b2, b3, b4⟩ | ⟨b1, _⟩)
          · exact absurd b1 hu
          · rw [hse] at b2; cases b2; exact ⟨b1, b3, b4⟩
          · omega
      rw [key2] at hpc
      revert hpc h2
      cases runL nd (parsePrefixRbsp 1 hd.nal_ref_idc e.use_ref_base_pic_flag e.idr_flag) ⟨r, c⟩ with
      | bad e => simp
      | ok a s1 =>
        simp only [Out.ok.injEq, Prod.mk.injEq]
        rintro ⟨_, rfl⟩ ⟨b1, b2⟩
        exact ⟨fun h => by omega, fun h => absurd h b2⟩
      | null s1 =>
        simp only [Out.ok.injEq, Prod.mk.injEq]
        rintro ⟨_, rfl⟩ (⟨b1, b2⟩ | ⟨b1, b2⟩)
        · exact ⟨fun h => by omega, fun h => absurd h b2⟩
        · exact ⟨fun _ => b2, fun _ => b1⟩
    · by_cases h20 : hd.nal_unit_type = 20
      · rw [if_pos (Or.inr h20)] at hext
        obtain ⟨hf, e, hse, heo⟩ := hext
        have hm := counted_scalHeader nd (C36_reachable_valid hσ) (n := hd)
          (fun e' he' => by rw [hse] at he'; cases he'; exact heo) r c
        have hk := counts_scalHeader σ hd nd ⟨r, c⟩
        have key2 : (Unsupported (allBits bytes) ∨ PrefixMarking (allBits bytes) ∨ LayerMarking σ (allBits bytes)) ↔
            HeaderMarking σ hd r := by
          rw [key, keyL]
          constructor
          · rintro (h | ⟨h, _⟩ | ⟨_, h⟩)
            · exact absurd h hu
            · omega
            · exact h
          · intro h; exact .inr (.inr ⟨h20, h⟩)
        rw [key2, ← hm]
        rw [runL_payload, if_neg (by omega), if_neg (by omega), if_neg (by omega), if_neg (by omega), if_neg (by omega),
          if_pos h20] at h2
        unfold parseSliceLayerExt at h2
        dsimp only at h2
        rw [if_pos (by omega), runL_bind, runL_attempt] at h2
        unfold Counted
        revert hk h2
        cases runL nd (parseScalHeader σ hd) ⟨r, c⟩ with
        | bad e => simp [Out.bind]
        | ok a s1 =>
          simp only [Out.bind, pure_eq, runL_ret, Out.ok.injEq, Prod.mk.injEq]
          rintro ⟨_, rfl⟩ hk
          exact ⟨fun h => by omega, fun ⟨_, h, _⟩ => by cases h⟩
        | null s1 =>
          simp only [Out.bind, pure_eq, runL_ret, Out.ok.injEq, Prod.mk.injEq]
          rintro ⟨_, rfl⟩ hk
          exact ⟨fun h => ⟨_, rfl, h⟩, fun ⟨_, h, h'⟩ => by cases h; exact h'⟩
      · rw [key, keyL]
        refine ⟨fun hc => ?_, ?_⟩
        · rcases hp.1 with h3 | ⟨h3, h4, h5⟩
          · dsimp only at h3; omega
          · omega
        · rintro (h | h | h)
          · exact absurd h hu
          · exact absurd h.1 ht
          · exact absurd h.1 h20

/-! ### Streams -/

/-- A returned NAL unit that may have been counted: a prefix NAL unit without its payload, or a slice of an enhancement layer
without its slice header. -/
def Lacking (u : NalUnit) : Prop :=
  (u.nal_unit_header.nal_unit_type = 14 ∧ u.nal_unit_payload.prefix_nal_unit = none) ∨
  (u.nal_unit_header.nal_unit_type = 20 ∧ ∃ x, u.nal_unit_payload.slice_layer_extension_rbsp = some x ∧
    x.slice_header_in_scalable_extension = none)

open Classical in
/-- C56: how far the counter goes up while NAL units are parsed in order: at most by the number of units that were not returned
plus the number of those returned without their payload. -/
theorem C56_sequence {nd : Bool} {opts : ParsingOptions} {us : List (Nat × List UInt8)} {σ σ' : Store} {c c' : Nat}
    {ns : List NalUnit} (hu : ∀ u ∈ us, u.2.length < 2 ^ 61)
    (h : InOrder (fun b => parseNalUnit nd opts b 0 b.length) us σ c ns σ' c') :
    ns.length ≤ us.length ∧ c ≤ c' ∧ c' ≤ c + (us.length - ns.length) + (ns.filter (fun n => decide (Lacking n))).length := by
  induction h with
  | nil σ c => simp
  | @skip off bytes rest σ σ' c c1 c' ns h1 h2 ih =>
    have hb : bytes.length < 2 ^ 61 := hu (off, bytes) (by simp)
    obtain ⟨a1, a2, a3⟩ := ih (fun u hu' => hu u (by simp [hu']))
    have := C56_at_most_once (data := bytes) (by omega) hb h1
    simp only [List.length_cons]
    omega
  | @unit off bytes rest σ σ1 σ' c c1 c' n ns h1 h2 ih =>
    have hb : bytes.length < 2 ^ 61 := hu (off, bytes) (by simp)
    obtain ⟨a1, a2, a3⟩ := ih (fun u hu' => hu u (by simp [hu']))
    simp only [List.length_cons, List.filter_cons]
    rcases C56_at_most_once (data := bytes) (by omega) hb h1 with b1 | ⟨b1, b2⟩
    · split
      · simp only [List.length_cons]; omega
      · omega
    · have hk : Lacking { n with offset := off, length := bytes.length } := by
        rcases b2 n rfl with ⟨b3, b4⟩ | ⟨b3, x, b4, b5, _⟩
        · exact .inl ⟨b3, by dsimp only; rw [b4]⟩
        · exact .inr ⟨b3, x, by dsimp only; rw [b4], b5⟩
      rw [if_pos (by simpa using hk)]
      simp only [List.length_cons]
      omega

theorem starts_length (l : List UInt8) : (starts l).length ≤ l.length := by
  have := List.length_filter_le (fun i => decide (isStart l i)) (List.range l.length)
  rwa [List.length_range] at this

theorem entries_length (l : List UInt8) : ∀ ps, (entries l ps).length = ps.length
  | [] => rfl
  | [p] => rfl
  | p :: q :: r => by rw [entries, List.length_cons, entries_length l (q :: r)]; rfl

/-- C56: ParseBitstream raises the counter at most once for each NAL unit in the stream, so that it does not wrap around in a
stream of less than 4 GiB. -/
theorem C56_bitstream {nd : Bool} {opts : ParsingOptions} {data : List UInt8} (hl : data.length < 2 ^ 61) {σ σ' : Store} {c c' : Nat}
    {bs : Bitstream} (h : parseBitstream nd opts data σ c = .val (bs, σ', c')) :
    c ≤ c' ∧ c' ≤ c + (starts data).length ∧ c' ≤ c + data.length := by
  obtain ⟨a1, a2, a3⟩ := C56_sequence (slice_lt hl _) ((C18_in_order nd opts data hl σ c bs σ' c').mp h).2
  rw [List.length_map, entries_length] at a1 a3
  have a4 := List.length_filter_le (fun n => @decide (Lacking n) (Classical.propDecidable _)) bs.nal_units
  have a5 := starts_length data
  omega

/-- C56: if ParseBitstream returns every NAL unit of the stream, and with its payload, then nothing was counted. -/
theorem C56_bitstream_complete {nd : Bool} {opts : ParsingOptions} {data : List UInt8} (hl : data.length < 2 ^ 61) {σ σ' : Store}
    {c c' : Nat} {bs : Bitstream} (h : parseBitstream nd opts data σ c = .val (bs, σ', c'))
    (hn : bs.nal_units.length = (starts data).length) (hp : ∀ n ∈ bs.nal_units, ¬ Lacking n) : c' = c := by
  obtain ⟨a1, a2, a3⟩ := C56_sequence (slice_lt hl _) ((C18_in_order nd opts data hl σ c bs σ' c').mp h).2
  rw [List.length_map, entries_length] at a1 a3
  have : (bs.nal_units.filter (fun n => @decide (Lacking n) (Classical.propDecidable _))) = [] := by
    rw [List.filter_eq_nil_iff]
    intro n hn'
    simpa using hp n hn'
  rw [this] at a3
  simp only [List.length_nil] at a3
  omega

/-! ### Examples -/

/-- An MVC prefix NAL unit (svc_extension_flag 0): not returned, and counted. -/
example (nd : Bool) : ∃ x, parseNalUnit nd {} [0x6e, 0x40, 0x00, 0x03, 0xff] 0 5 {} 7 = .val x ∧ (x.1 = none ∧ x.2.2 = 8) := by
  cases nd <;> exact exists_dec (by decide +kernel)
example : Unsupported (allBits (withoutEmulation [0x6e, 0x40, 0x00, 0x03, 0xff])) := by unfold Unsupported; decide +kernel

/-- A prefix NAL unit with use_ref_base_pic_flag 1 in a picture that is not an IDR picture: returned without its payload, and
counted. -/
theorem ex_marking : PrefixMarking (allBits (withoutEmulation [0x6e, 0x80, 0x80, 0x17, 0x80])) :=
  ⟨{ nal_ref_idc := 3, nal_unit_type := 14, svc_extension_flag := 1,
     svc_extension := some { no_inter_layer_pred_flag := 1, use_ref_base_pic_flag := 1, output_flag := 1, reserved_three_2bits := 3 } },
   _, true, List.replicate 7 false, by
    refine ⟨by decide, by decide, by decide, by decide, ?_⟩
    rw [if_pos (by decide)]
    exact ⟨rfl, _, rfl, by constructor <;> decide⟩, rfl, by decide, rfl, rfl, .inl rfl, by decide +kernel⟩
example (nd : Bool) : ∃ x, parseNalUnit nd {} [0x6e, 0x80, 0x80, 0x17, 0x80] 0 5 {} 7 = .val x ∧
    (x.1.map (fun n => (n.nal_unit_header.nal_unit_type, n.nal_unit_payload)) = some (14, {}) ∧ x.2.2 = 8) := by
  cases nd <;> exact exists_dec (by decide +kernel)

/-- A slice of an enhancement layer with store_ref_base_pic_flag `f`. -/
def exLayerUnit (f : Nat) : List UInt8 :=
  escapeNal (exRbsp exScalNal (encScalHeader exScalCtx { exScal 1 with ref := { (exScal 1).ref with store_ref_base_pic_flag := f } }) 0)

/-- C56: a slice of an enhancement layer that has dec_ref_base_pic_marking() is counted; it is returned without its slice
header. -/
theorem C56_layer_counted (nd : Bool) : ∃ x, parseNalUnit nd {} (exLayerUnit 1) 0 (exLayerUnit 1).length exScalStore 7 = .val x ∧
    (x.1.map (fun n => n.nal_unit_payload.slice_layer_extension_rbsp.map (·.slice_header_in_scalable_extension)) = some (some none) ∧
      x.2.2 = 8) := by
  cases nd <;> exact exists_dec (by decide +kernel)

/-- C56: without it, the same slice is returned with its slice header, and is not counted. -/
theorem C56_layer_not_counted (nd : Bool) :
    ∃ x, parseNalUnit nd {} (exLayerUnit 0) 0 (exLayerUnit 0).length exScalStore 7 = .val x ∧
    (x.1.map (fun n => n.nal_unit_payload.slice_layer_extension_rbsp.map (·.slice_header_in_scalable_extension)) =
      some (some (some (exScal 1))) ∧ x.2.2 = 7) := by
  cases nd <;> exact exists_dec (by decide +kernel)

/-- The first of them has dec_ref_base_pic_marking() in its slice header. -/
example : LayerMarking exScalStore (allBits (withoutEmulation (exLayerUnit 1))) := by
  refine ⟨exScalNal, (allBits (withoutEmulation (exLayerUnit 1))).drop (encNalHeader exScalNal).length,
    ?_, rfl, ⟨exScalCtx, exScal 1, true,
      (allBits (withoutEmulation (exLayerUnit 1))).drop ((encNalHeader exScalNal).length + 1 +
        (encUE (exScal 1).first_mb_in_slice ++ encUE (exScal 1).slice_type ++ encUE (exScal 1).pic_parameter_set_id ++
          encScalPic exScalCtx (exScal 1).pic ++ encScalRef exScalCtx.restricted (exScal 1).slice_type (exScal 1).ref).length),
      exScal_refers 1, by decide +kernel, by decide +kernel, by decide +kernel, ?_, ?_, by decide +kernel, by decide +kernel,
      by decide +kernel, by decide +kernel, .inr rfl, by decide +kernel⟩, by decide +kernel⟩
  · constructor <;> first
      | decide +kernel
      | exact ⟨rfl, _, rfl, exScalNal_ok _ rfl⟩
  · exact exScal1_ok.pic
  · constructor <;> first
      | decide +kernel
      | exact ⟨_, rfl, exTable_ok⟩
      | exact ⟨_, rfl, exMarking_ok⟩
      | exact ⟨_, rfl, by constructor <;> first | decide +kernel | exact ⟨by decide, by decide +kernel⟩⟩

/-- The parameter sets of a stream with an enhancement layer: `exSvcStream` with slice_header_restriction_flag 0. -/
def exMarkedStream : List UInt8 := exSvcStream.set 33 128
/-- A slice of that layer with dec_ref_base_pic_marking(). -/
def exMarkedSlice : List UInt8 := [116, 128, 144, 31, 180, 0, 1, 192, 196, 66, 0, 4, 224]

/-- A store that is reached, and a slice that is counted with it. -/
example : ∃ σ, Reachable σ ∧ LayerMarking σ (allBits (withoutEmulation exMarkedSlice)) := by
  have h : ∃ r, ((parseBitstream false {} exMarkedStream {} 0).bind fun b =>
      (parseNalUnit false {} exMarkedSlice 0 13 b.2.1 0).bind fun a => Res.val (b, a)) = .val r ∧
      (r.2.2.2 = 1 ∧ (r.2.1.map (·.nal_unit_header.nal_unit_type)) = some 20) :=
    exists_dec (by decide +kernel)
  obtain ⟨r, h1, h2, h2'⟩ := h
  cases h3 : parseBitstream false {} exMarkedStream {} 0 with
  | bad e => rw [h3] at h1; cases h1
  | val b =>
    rw [h3] at h1
    cases h5 : parseNalUnit false {} exMarkedSlice 0 13 b.2.1 0 with
    | bad e => simp only [Res.bind, h5] at h1; cases h1
    | val a =>
      simp only [Res.bind, h5] at h1
      cases h1
      have hr : Reachable b.2.1 := .bitstream .empty (by decide) h3
      refine ⟨_, hr, ?_⟩
      rcases (C56_counted_iff (by decide) (by decide) hr h5).mp h2 with h | h | h
      · exact absurd h (by unfold Unsupported; decide +kernel)
      · obtain ⟨hd, e, st, rest, ho, ht, _, _, _, _, hb⟩ := h
        have hd1 : bitsVal ((encNalHeader hd ++ st :: rest).drop 3 |>.take 5) = 20 := by rw [← hb]; decide +kernel
        unfold encNalHeader at hd1
        rw [List.append_assoc, List.append_assoc, List.append_assoc, ← List.append_assoc (encU 1 _),
          List.drop_left' (by simp), List.take_left' (by simp), bitsVal_encU (by omega)] at hd1
        omega
      · exact h

end H264.Props
