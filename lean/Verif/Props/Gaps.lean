import Verif.Spec.Names
import Verif.Props.Writer
import Verif.Props.Common
import Verif.Props.Stream
import Verif.Props.StapA

/-
Theorems that seeded faults asked for: names of NAL unit types (C47), writes of a fixed width (C07), what is returned for a NAL unit of
type 20 (C48).
-/

namespace H264.Props
open H264 H264.Spec

/-- C47: the names are those of Table 7-1; other values are "unknown". -/
theorem C47_table (t : Nat) : nalUnitTypeToString t = (typeNames[t]?).getD "unknown" := by
  by_cases h : 32 ≤ t
  · rw [typeString_big h, List.getElem?_eq_none (by show 32 ≤ t; exact h)]
    rfl
  · have : ∀ i < 32, nalUnitTypeToString i = (typeNames[i]?).getD "unknown" := by decide +kernel
    exact this t (by omega)

example : nalUnitTypeToString 10 = "eoseq" ∧ nalUnitTypeToString 11 = "eostream" ∧ nalUnitTypeToString 77 = "unknown" := by decide +kernel

theorem fixed_read {b : Buf} (h : b.WF) {n v : Nat} (h1 : 1 ≤ n) (h32 : n ≤ 32) (hv : v < 2 ^ n) {r : List Bool} (hr : b.rem = encU n v ++ r) :
    b.readBits 32 n = .val (some v, b.adv n) := by
  rw [Buf.readBits_eq h, if_neg (by rw [hr]; simp; omega), hr]
  rw [List.take_append_of_le_length (by simp), List.take_of_length_le (by simp), bitsVal_encU hv]

theorem fixed_write {b : Buf} (h : b.WF) {n v : Nat} (h1 : 1 ≤ n) (h32 : n ≤ 32) (hv : v < 2 ^ n) (hroom : b.pos + n ≤ 8 * b.bytes.length) :
    ∃ b', b.writeBits v n = .val (true, b') ∧ b.Wrote b' (encU n v) ∧ (Buf.rewind b b').readBits 32 n = .val (some v, b') := by
  obtain ⟨b', e, hw⟩ := Buf.writeBits_eq h v n h1 (by omega) (by have := h.inside; rw [Buf.length_rem]; omega)
  obtain ⟨r1, r2, _⟩ := hw.rem h
  refine ⟨b', e, hw, ?_⟩
  rw [fixed_read r2 h1 h32 hv r1]
  congr 2
  refine (Buf.ext_pos hw.2.2.2 (r2.adv (by rw [r1]; simp)) rfl ?_).symm
  rw [Buf.adv_pos, hw.2.2.1, show (encU n v).length = n by simp]
  rfl

/-- C07: `WriteUInt8`, `WriteUInt16` and `WriteUInt32` write their argument in 8, 16 and 32 bits, most significant bit first, if there is room;
`ReadUInt8`, `ReadUInt16` and `ReadUInt32` from the same place read it back and stop where the writer stopped.  Without room nothing changes. -/
theorem C07_fixed_width {b : Buf} (h : b.WF) :
    (∀ v < 2 ^ 8, if b.pos + 8 ≤ 8 * b.bytes.length then
        ∃ b', b.writeUInt8 v = .val (true, b') ∧ b.Wrote b' (encU 8 v) ∧ (Buf.rewind b b').readUInt8 = .val (some v, b')
      else b.writeUInt8 v = .val (false, b)) ∧
    (∀ v < 2 ^ 16, if b.pos + 16 ≤ 8 * b.bytes.length then
        ∃ b', b.writeUInt16 v = .val (true, b') ∧ b.Wrote b' (encU 16 v) ∧ (Buf.rewind b b').readUInt16 = .val (some v, b')
      else b.writeUInt16 v = .val (false, b)) ∧
    (∀ v < 2 ^ 32, if b.pos + 32 ≤ 8 * b.bytes.length then
        ∃ b', b.writeUInt32 v = .val (true, b') ∧ b.Wrote b' (encU 32 v) ∧ (Buf.rewind b b').readUInt32 = .val (some v, b')
      else b.writeUInt32 v = .val (false, b)) := by
  refine ⟨fun v hv => ?_, fun v hv => ?_, fun v hv => ?_⟩
  · split
    · rename_i hr
      obtain ⟨b', e, hw, hx⟩ := fixed_write h (n := 8) (v := v) (by omega) (by omega) hv hr
      refine ⟨b', by unfold Buf.writeUInt8; rw [Nat.mod_eq_of_lt hv]; exact e, hw, ?_⟩
      unfold Buf.readUInt8
      rw [hx, Res.val_bind]
      dsimp only
      rw [show decide (v ≤ 255) = true from decide_eq_true (by omega), Res.check_true, Res.val_bind, Nat.mod_eq_of_lt hv]
      rfl
    · unfold Buf.writeUInt8
      exact C07_writeBits_no_room h _ _ (by omega)
  · split
    · rename_i hr
      obtain ⟨b', e, hw, hx⟩ := fixed_write h (n := 16) (v := v) (by omega) (by omega) hv hr
      refine ⟨b', by unfold Buf.writeUInt16; rw [Nat.mod_eq_of_lt hv]; exact e, hw, ?_⟩
      unfold Buf.readUInt16
      rw [hx, Res.val_bind]
      dsimp only
      rw [show decide (v ≤ 65535) = true from decide_eq_true (by omega), Res.check_true, Res.val_bind, Nat.mod_eq_of_lt hv]
      rfl
    · unfold Buf.writeUInt16
      exact C07_writeBits_no_room h _ _ (by omega)
  · split
    · rename_i hr
      obtain ⟨b', e, hw, hx⟩ := fixed_write h (n := 32) (v := v) (by omega) (by omega) hv hr
      exact ⟨b', by unfold Buf.writeUInt32; rw [Nat.mod_eq_of_lt hv]; exact e, hw, by unfold Buf.readUInt32; exact hx⟩
    · unfold Buf.writeUInt32
      exact C07_writeBits_no_room h _ _ (by omega)

example : ({ bytes := [0, 0, 0xFF], byteOff := 0, bitOff := 3 } : Buf).writeUInt16 0xABCD =
    .val (true, { bytes := [0x15, 0x79, 0xBF], byteOff := 2, bitOff := 3 }) := by decide +kernel

/-! ### NAL units of type 20 -/

/-- C48: what `ParseSliceLayerExtensionRbsp` returns: the flags, nal_ref_idc and type of the NAL unit header it is given, and the slice header that
they call for: with svc_extension_flag that of a scalable slice, or none if that one does not parse; with avc_3d_extension_flag none; else that
of a slice, without which nothing is returned. -/
theorem C48_layer_extension (nd : Bool) {b : Buf} (hb : b.WF) (c : Nat) (σ : Store) (h : NalHeader) (x : SliceLayerExt) (s' : St) :
    run nd (parseSliceLayerExt σ h) ⟨b, c⟩ = .ok x s' ↔
      (x.svc_extension_flag = h.svc_extension_flag ∧ x.avc_3d_extension_flag = h.avc_3d_extension_flag ∧ x.nal_ref_idc = h.nal_ref_idc ∧
        x.nal_unit_type = h.nal_unit_type) ∧
      (h.svc_extension_flag ≠ 0 → x.slice_header = none ∧
        ((∃ y, x.slice_header_in_scalable_extension = some y ∧ run nd (parseScalHeader σ h) ⟨b, c⟩ = .ok y s') ∨
         (x.slice_header_in_scalable_extension = none ∧ run nd (parseScalHeader σ h) ⟨b, c⟩ = .null s'))) ∧
      (h.svc_extension_flag = 0 → h.avc_3d_extension_flag ≠ 0 →
        x.slice_header = none ∧ x.slice_header_in_scalable_extension = none ∧ s' = ⟨b, c⟩) ∧
      (h.svc_extension_flag = 0 → h.avc_3d_extension_flag = 0 →
        x.slice_header_in_scalable_extension = none ∧
        ∃ y, x.slice_header = some y ∧ run nd (parseSliceHeader σ h.nal_ref_idc h.nal_unit_type) ⟨b, c⟩ = .ok y s') := by
  have hc : toSt b ⟨b.rem, c⟩ = ⟨b, c⟩ := by
    have := run_eq nd (Prog.ret ()) hb c
    simp only [run, runL_ret, Out.mapSt, Out.ok.injEq, true_and] at this
    exact this.symm
  obtain ⟨x1, x2, x3, x4, x5, x6⟩ := x
  rw [run_eq nd _ hb, run_eq nd _ hb, run_eq nd _ hb]
  unfold parseSliceLayerExt
  dsimp only
  split
  · rename_i hf
    rw [runL_bind, runL_attempt]
    cases runL nd (parseScalHeader σ h) ⟨b.rem, c⟩ <;> simp [hf, Out.bind, Out.mapSt] <;> grind
  · rename_i hf
    have hf : h.svc_extension_flag = 0 := by omega
    split
    · rename_i hg
      simp [hf, hg, Out.mapSt, hc]; grind
    · rename_i hg
      have hg : h.avc_3d_extension_flag = 0 := by omega
      rw [runL_bind]
      cases runL nd (parseSliceHeader σ h.nal_ref_idc h.nal_unit_type) ⟨b.rem, c⟩ <;> simp [hf, hg, Out.bind, Out.mapSt] <;> grind

example (nd : Bool) : run nd (parseSliceLayerExt {} { nal_unit_type := 21, avc_3d_extension_flag := 1 }) ⟨{ bytes := [0x80], byteOff := 0, bitOff := 0 }, 0⟩ =
    .ok { avc_3d_extension_flag := 1, nal_unit_type := 21 } ⟨{ bytes := [0x80], byteOff := 0, bitOff := 0 }, 0⟩ :=
  (C48_layer_extension nd (by constructor <;> decide) 0 {} _ _ _).mpr
    ⟨⟨rfl, rfl, rfl, rfl⟩, fun h => absurd rfl h, fun _ _ => ⟨rfl, rfl, rfl⟩, fun _ h => by cases h⟩

/-- C48: so nothing is returned for a slice of another view (svc_extension_flag 0, type 20 or 21): its list modification is not implemented. -/
theorem C48_other_view (nd : Bool) {b : Buf} (hb : b.WF) (c : Nat) {σ : Store} (hσ : σ.InRange) {h : NalHeader}
    (ht : h.nal_unit_type = 20 ∨ h.nal_unit_type = 21) (h1 : h.svc_extension_flag = 0) (h2 : h.avc_3d_extension_flag = 0)
    (x : SliceLayerExt) (s' : St) : run nd (parseSliceLayerExt σ h) ⟨b, c⟩ ≠ .ok x s' := by
  intro hx
  obtain ⟨_, _, _, hy⟩ := (C48_layer_extension nd hb c σ h x s').mp hx
  obtain ⟨_, y, _, hy⟩ := hy h1 h2
  exact C34_mvc_refused nd hb c hσ h.nal_ref_idc ht y s' hy

theorem payload_20 {nd : Bool} {σ σ' : Store} {n : NalUnit} (hn : n.nal_unit_header.Ok) (ht : n.nal_unit_header.nal_unit_type = 20) {s s' : LSt}
    (h : runL nd (parsePayload σ n.nal_unit_header) s = .ok (n.nal_unit_payload, σ') s') :
    n.nal_unit_payload.slice_layer_extension_rbsp.isSome = true := by
  have he := hn.ext
  rw [if_pos (.inr ht)] at he
  rw [runL_payload, if_neg (by omega), if_neg (by omega), if_neg (by omega), if_neg (by omega), if_neg (by omega), if_pos ht] at h
  cases hr : runL nd (parseSliceLayerExt σ n.nal_unit_header) s with
  | bad e => rw [hr] at h; simp at h
  | null s1 =>
    unfold parseSliceLayerExt at hr
    dsimp only at hr
    rw [if_pos (by omega), runL_bind, runL_attempt] at hr
    cases hq : runL nd (parseScalHeader σ n.nal_unit_header) s <;> rw [hq] at hr <;> simp [Out.bind] at hr
  | ok x s1 =>
    rw [hr] at h
    simp only [Out.ok.injEq, Prod.mk.injEq] at h
    rw [← h.1.1]
    rfl

/-- C48: in every stream, each NAL unit of type 20 that is returned has svc_extension_flag 1 and a payload, which may lack its slice header. -/
theorem C48_type_20 {nd : Bool} {opts : ParsingOptions} {data : List UInt8} (hl : data.length < 2 ^ 61) {σ σ' : Store} {c c' : Nat}
    {bs : Bitstream} (h : parseBitstream nd opts data σ c = .val (bs, σ', c')) :
    ∀ n ∈ bs.nal_units, n.nal_unit_header.nal_unit_type = 20 →
      n.nal_unit_header.svc_extension_flag = 1 ∧ n.nal_unit_payload.slice_layer_extension_rbsp.isSome = true := by
  have ho := ((C18_in_order nd _ data (by omega) σ c bs σ' c').mp h).2
  have hs := slice_lt hl (entries data (starts data))
  generalize (entries data (starts data)).map (fun e => (e.payload_start_offset, sliceOf data e)) = us at ho hs
  generalize bs.nal_units = ns at ho ⊢
  clear h hl
  induction ho with
  | nil σ c => intro n hn; cases hn
  | skip h1 h2 ih => exact ih (fun u hu' => hs u (by simp [hu']))
  | @unit off b _ _ _ _ _ _ _ n ns h1 h2 ih =>
    have hb1 : b.length < 2 ^ 61 := hs (off, b) (by simp)
    have hn := Props.parseNalUnit_val (by omega) hb1 h1
    rcases nalUnitL_cases hn with ⟨h, _⟩ | ⟨hd', s, p, s', he, h3, h4, _⟩
    · cases h
    have e := Option.some.inj he
    have e1 : n.nal_unit_header = hd' := by rw [e]
    have e2 : n.nal_unit_payload = p := by rw [e]
    rw [← e1] at h3
    rw [← e1, ← e2] at h4
    clear he e
    intro m hm
    rcases List.mem_cons.mp hm with rfl | hm
    · intro ht
      obtain ⟨ok, _⟩ := (codec_nalHeader nd _ _ n.nal_unit_header _).mp h3
      have := ok.ext
      rw [if_pos (.inr ht)] at this
      exact ⟨this.1, payload_20 (n := { n with offset := off, length := b.length }) ok ht h4⟩
    · exact ih (fun u hu' => hs u (by simp [hu'])) m hm

example (nd : Bool) : ∃ r, parseBitstream nd {} [0, 0, 1, 0x74, 0xC0, 0x00, 0x07, 0x80] {} 0 = .val r ∧
    r.1.nal_units.map (fun n => n.nal_unit_header.nal_unit_type) = [20] := by
  cases nd <;> exact exists_dec (by decide +kernel)

end H264.Props
