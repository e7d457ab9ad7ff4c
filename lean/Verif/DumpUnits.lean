import Verif.DumpShown
import Verif.Props.Checksum

/-
The dump functions of NAL units, bitstreams and RTP packets write the items of Spec/DumpItems.lean.
-/

namespace H264
open Prog H264.Spec H264.Shown

theorem prefixSvc_draws (x : PrefixSvc) {l : Int} (hl : Lev l) : DrawsOne l (x.fdump l) (prefixSvcItem x) := by
  unfold PrefixSvc.fdump prefixSvcItem
  refine drawsOne_block hl fun l hl => ?_
  draws

theorem prefix_draws {x : PrefixRbsp} (hx : x.svc_extension_flag < 2) {l : Int} (hl : Lev l) :
    DrawsOne l (x.fdump l) (prefixItem x) := by
  unfold PrefixRbsp.fdump prefixItem
  refine drawsOne_block hl fun l hl => ?_
  refine draws_cons (draws_when (by omega) fun _ _ => draws_cons ?_ (draws_nil _)) (draws_nil _)
  exact draws_checked hl (fun y _ => prefixSvc_draws y hl) (by simp [prefixSvcItem, struct])

/-- What is known of the header of a payload. -/
structure Hdr (n : NalHeader) : Prop where
  ext : ∀ e, n.svc_extension = some e → e.Ok
  flag : n.svc_extension_flag < 2

theorem Hdr.parsed {nd : Bool} {s s' : LSt} {n : NalHeader} (h : runL nd parseNalHeader s = .ok n s') : n.Ok ∧ Hdr n := by
  obtain ⟨ok, _⟩ := (codec_nalHeader nd s.rem s.cnt n s').mp h
  refine ⟨ok, header_svc h, ?_⟩
  have h1 := ok.ext
  split at h1 <;> omega

theorem setsOf_some {σ : Store} {id : Nat} {p : Pps} {s : SpsData} (h1 : σ.pps id = some p)
    (h2 : σ.sps p.seq_parameter_set_id = some s) : setsOf σ id = some (s, p) := by
  unfold setsOf
  simp [h1, h2]

theorem sliceHeader_in {nd : Bool} {σ : Store} (hσ : σ.Valid) {n : NalHeader} {s s' : LSt} {x : SliceHeader}
    (h : runL nd (parseSliceHeader σ n.nal_ref_idc n.nal_unit_type) s = .ok x s') {l : Int} (hl : Lev l) :
    Draws l (item l (x.fdump l)) (sliceHeaderIn σ n x) := by
  obtain ⟨⟨p, sp, hp, hs, ok⟩, _⟩ := (codec_sliceHeader hσ.inRange _ _ nd s.rem s.cnt x s').mp h
  unfold sliceHeaderIn
  rw [setsOf_some hp hs]
  exact draws_item hl (sliceHeader_draws (hσ.sps _ _ hs).1 (hσ.pps _ _ hp).1 ok hl) (by simp [sliceHeaderItem, struct])

theorem scalHeader_in {nd : Bool} {σ : Store} (hσ : σ.Valid) {n : NalHeader} (hn : ∀ e, n.svc_extension = some e → e.Ok)
    {s s' : LSt} {x : ScalHeader} (h : runL nd (parseScalHeader σ n) s = .ok x s') {l : Int} (hl : Lev l) :
    Draws l (item l (x.fdump l)) (scalHeaderIn σ n x) := by
  obtain ⟨⟨c, hc, ok⟩, _⟩ := (codec_scalHeader hσ hn nd s.rem s.cnt x s').mp h
  obtain ⟨r1, ⟨ss, r2, r3, r4⟩, r5, r6, r7⟩ := hc
  have hc : ctxOf σ n x.pic_parameter_set_id = some c := by
    unfold ctxOf
    simp [r1, r2, r3, r4, r5, ← r6, ← r7]
  unfold scalHeaderIn
  rw [hc]
  have hs := (hσ.subset_sps _ _ r2).1
  have he : c.e.Ok (chromaArrayType c.s.toSpsHead) := by
    have h1 := hs.svc
    split at h1
    · obtain ⟨e, q1, q2⟩ := h1
      rw [r4] at q1
      injection q1 with q1
      rw [q1, ← r3]; exact q2
    · rw [r4] at h1; cases h1
  refine draws_item hl (scalHeader_draws ?_ (hσ.pps _ _ r1).1 (hn _ r5) he ok hl) (by simp [scalHeaderItem, struct])
  rw [← r3]; exact hs.sps

theorem sliceLayer_draws {nd : Bool} {σ : Store} (hσ : σ.Valid) {n : NalHeader} {s s' : LSt} {x : SliceLayer}
    (h : runL nd (parseSliceLayer σ n.nal_ref_idc n.nal_unit_type) s = .ok x s') {l : Int} (hl : Lev l) :
    DrawsOne l (x.fdump l) (sliceLayerItem σ n x) := by
  unfold parseSliceLayer at h
  rw [runL_bind_ok] at h
  obtain ⟨y, s1, h1, h⟩ := h
  simp only [Prog.pure_eq, runL_ret, Out.ok.injEq] at h
  obtain ⟨rfl, _⟩ := h
  unfold SliceLayer.fdump sliceLayerItem
  refine drawsOne_block hl fun l hl => draws_cons ?_ (draws_nil _)
  exact sliceHeader_in hσ h1 hl

theorem sliceLayerExt_draws {nd : Bool} {σ : Store} (hσ : σ.Valid) {n : NalHeader} (hn : Hdr n)
    {s s' : LSt} {x : SliceLayerExt} (h : runL nd (parseSliceLayerExt σ n) s = .ok x s') {l : Int} (hl : Lev l) :
    DrawsOne l (x.fdump l) (sliceLayerExtItem σ n x) := by
  have hf := hn.flag
  unfold parseSliceLayerExt at h
  dsimp only at h
  unfold SliceLayerExt.fdump sliceLayerExtItem
  refine drawsOne_block hl fun l hl => draws_many [_, _] ?_ (draws_nil _)
  split at h
  · rename_i hf
    rw [runL_bind_ok] at h
    obtain ⟨y, s1, h1, h⟩ := h
    simp only [Prog.pure_eq, runL_ret, Out.ok.injEq] at h
    obtain ⟨rfl, _⟩ := h
    rw [if_pos hf, opt_pos (by dsimp only; omega), opt_neg (by dsimp only; omega)]
    refine Draws.only (Draws.only ?_ rfl) rfl
    rw [runL_attempt] at h1
    cases hr : runL nd (parseScalHeader σ n) s with
    | bad e => rw [hr] at h1; simp at h1
    | null s =>
      rw [hr] at h1
      simp only [Out.ok.injEq] at h1
      obtain ⟨rfl, rfl⟩ := h1
      exact drawsOne_line (p := (none : Option ScalHeader)) (f := (·.fdump l)) (g := fun _ => .blank) hl (by simp) (by simp)
    | ok a s2 =>
      rw [hr] at h1
      simp only [Out.ok.injEq] at h1
      obtain ⟨rfl, rfl⟩ := h1
      exact scalHeader_in hσ hn.ext hr hl
  split at h
  · rename_i hf hg
    simp only [Prog.pure_eq, runL_ret, Out.ok.injEq] at h
    obtain ⟨rfl, _⟩ := h
    rw [if_neg hf, if_pos hg, opt_neg (by dsimp only; omega), opt_neg (by dsimp only; omega)]
    exact draws_none l
  · rename_i hf hg
    rw [runL_bind_ok] at h
    obtain ⟨y, s1, h1, h⟩ := h
    simp only [Prog.pure_eq, runL_ret, Out.ok.injEq] at h
    obtain ⟨rfl, _⟩ := h
    rw [if_neg hf, if_neg hg, opt_neg (by dsimp only; omega), opt_pos (by dsimp only; omega)]
    exact Draws.nil (Draws.only (Draws.only (sliceHeader_in hσ h1 hl) rfl) rfl)

theorem prefixPayload_flag {nd : Bool} {n : NalHeader} {s s' : LSt} {x : PrefixRbsp}
    (h : runL nd (parsePrefixPayload n) s = .ok (some x) s') : x.svc_extension_flag = n.svc_extension_flag := by
  unfold parsePrefixPayload at h
  split at h
  · split at h
    · rename_i e _
      rw [runL_attempt] at h
      cases hr : runL nd (parsePrefixRbsp n.svc_extension_flag n.nal_ref_idc e.use_ref_base_pic_flag e.idr_flag) s with
      | bad e => rw [hr] at h; simp at h
      | null s => rw [hr] at h; simp at h
      | ok a s2 =>
        rw [hr] at h
        simp only [Out.ok.injEq, Option.some.injEq] at h
        obtain ⟨rfl, _⟩ := h
        unfold parsePrefixRbsp at hr
        rw [runL_bind_ok] at hr
        obtain ⟨y, s1, _, hr⟩ := hr
        simp only [Prog.pure_eq, runL_ret, Out.ok.injEq] at hr
        rw [← hr.1]
    · simp at h
  · simp at h

theorem payload_draws {nd : Bool} {σ σ' : Store} (hσ : σ.Valid) {n : NalHeader} (hn : Hdr n)
    {s s' : LSt} {p : Payload} (h : runL nd (parsePayload σ n) s = .ok (p, σ') s') (opts : ParsingOptions) {l : Int} (hl : Lev l) :
    DrawsOne l (p.fdump l n.nal_unit_type opts) (payloadItem σ opts n p) := by
  unfold Payload.fdump payloadItem
  refine drawsOne_block hl fun l hl => draws_cons ?_ (draws_nil _)
  have hm : n.nal_unit_type ∈ [1, 5] ↔ (n.nal_unit_type = 1 ∨ n.nal_unit_type = 5) := by simp
  simp only [hm]
  rw [runL_payload] at h
  revert h
  by_cases h1 : n.nal_unit_type = 1 ∨ n.nal_unit_type = 5
  · simp only [if_pos h1]
    intro h
    refine drawsOne_line hl (fun x hx => ?_) (by simp [sliceLayerItem, struct])
    cases hr : runL nd (parseSliceLayer σ n.nal_ref_idc n.nal_unit_type) s <;> rw [hr] at h <;> simp at h <;>
      obtain ⟨⟨rfl, _⟩, _⟩ := h <;> cases hx
    exact sliceLayer_draws hσ hr hl
  simp only [if_neg h1]
  by_cases h2 : n.nal_unit_type = 7
  · simp only [if_pos h2]
    intro h
    refine drawsOne_line hl (fun x hx => ?_) (by simp [spsItem, struct])
    cases hr : runL nd parseSps s <;> rw [hr] at h <;> simp at h <;>
      obtain ⟨⟨rfl, _⟩, _⟩ := h <;> cases hx
    have := spsData_ranges nd ((sps_iff nd s _).mp ⟨_, hr⟩).choose_spec
    exact sps_draws ⟨this.1, this.2.1⟩ opts hl
  simp only [if_neg h2]
  by_cases h3 : n.nal_unit_type = 8
  · simp only [if_pos h3]
    intro h
    exact drawsOne_line hl (fun x hx => pps_draws x hl) (by simp [ppsItem, struct])
  simp only [if_neg h3]
  by_cases h4 : n.nal_unit_type = 14
  · simp only [if_pos h4]
    intro h
    refine drawsOne_line hl (fun x hx => ?_) (by simp [prefixItem, struct])
    cases hr : runL nd (parsePrefixPayload n) s <;> rw [hr] at h <;> simp at h <;>
      obtain ⟨⟨rfl, _⟩, _⟩ := h
    dsimp only at hx
    subst hx
    refine prefix_draws ?_ hl
    rw [prefixPayload_flag hr]; exact hn.flag
  simp only [if_neg h4]
  by_cases h5 : n.nal_unit_type = 15
  · simp only [if_pos h5]
    intro h
    refine drawsOne_line hl (fun x hx => ?_) (by simp [subsetSpsItem, struct])
    cases hr : runL nd parseSubsetSps s <;> rw [hr] at h <;> simp at h <;>
      obtain ⟨⟨rfl, _⟩, _⟩ := h <;> cases hx
    exact subsetSps_draws (subsetSps_ranges nd hr) opts hl
  simp only [if_neg h5]
  by_cases h6 : n.nal_unit_type = 20
  · simp only [if_pos h6]
    intro h
    refine drawsOne_line hl (fun x hx => ?_) (by simp [sliceLayerExtItem, struct])
    cases hr : runL nd (parseSliceLayerExt σ n) s <;> rw [hr] at h <;> simp at h <;>
      obtain ⟨⟨rfl, _⟩, _⟩ := h <;> cases hx
    exact sliceLayerExt_draws hσ hn hr hl
  simp only [if_neg h6]
  intro _
  exact drawsOne_line (p := (none : Option Unit)) (f := fun _ => .val []) (g := fun _ => .blank) hl (by simp) (by simp)

theorem payload_stored {nd : Bool} {σ σ' : Store} {n : NalHeader} {s s' : LSt} {p : Payload}
    (h : runL nd (parsePayload σ n) s = .ok (p, σ') s') : σ' = stored σ p := by
  have h0 : ∀ (p : Payload), p.sps = none → p.pps = none → p.subset_sps = none → stored σ p = σ := by
    intro p h1 h2 h3
    unfold stored
    rw [h1, h2, h3]
  rw [runL_payload] at h
  revert h
  split
  · generalize runL nd (parseSliceLayer σ n.nal_ref_idc n.nal_unit_type) s = r
    intro h
    cases r <;> simp at h <;> obtain ⟨⟨rfl, rfl⟩, _⟩ := h <;> exact (h0 _ rfl rfl rfl).symm
  split
  · generalize runL nd parseSps s = r
    intro h
    cases r <;> simp at h <;> obtain ⟨⟨rfl, rfl⟩, _⟩ := h
    · rfl
    · exact (h0 _ rfl rfl rfl).symm
  split
  · generalize runL nd (parsePps 1) s = r
    intro h
    cases r <;> simp at h <;> obtain ⟨⟨rfl, rfl⟩, _⟩ := h
    · rfl
    · exact (h0 _ rfl rfl rfl).symm
  split
  · generalize runL nd (parsePrefixPayload n) s = r
    intro h
    cases r <;> simp at h <;> obtain ⟨⟨rfl, rfl⟩, _⟩ := h <;> exact (h0 _ rfl rfl rfl).symm
  split
  · generalize runL nd parseSubsetSps s = r
    intro h
    cases r <;> simp at h <;> obtain ⟨⟨rfl, rfl⟩, _⟩ := h
    · rfl
    · exact (h0 _ rfl rfl rfl).symm
  split
  · generalize runL nd (parseSliceLayerExt σ n) s = r
    intro h
    cases r <;> simp at h <;> obtain ⟨⟨rfl, rfl⟩, _⟩ := h <;> exact (h0 _ rfl rfl rfl).symm
  · intro h
    simp only [Out.ok.injEq, Prod.mk.injEq] at h
    obtain ⟨⟨rfl, rfl⟩, _⟩ := h
    exact (h0 _ rfl rfl rfl).symm

/-! ### NAL units -/

theorem hex_eq (v : Nat) : hex v = hex08 v := by
  unfold hex hex08 List.leftpad
  rfl

theorem hex_bytes (v : Nat) {w x y z : UInt8} (h : [w, x, y, z] = be 4 v) :
    hex2 w ++ hex2 x ++ hex2 y ++ hex2 z = hex8 v := by
  have e : ∀ w, (UInt8.ofNat w).toNat / 16 = w / 16 % 16 ∧ (UInt8.ofNat w).toNat % 16 = w % 16 := by
    intro w; simp only [UInt8.toNat_ofNat']; omega
  have h1 : w = UInt8.ofNat (v / 16777216) := by injection h
  have h2 : x = UInt8.ofNat (v / 65536) := by injection h with _ h; injection h
  have h3 : y = UInt8.ofNat (v / 256) := by injection h with _ h; injection h with _ h; injection h
  have h4 : z = UInt8.ofNat (v / 1) := by injection h with _ h; injection h with _ h; injection h with _ h; injection h
  have h8 : hex8 v = [(v / 268435456 % 16).digitChar, (v / 16777216 % 16).digitChar, (v / 1048576 % 16).digitChar,
      (v / 65536 % 16).digitChar, (v / 4096 % 16).digitChar, (v / 256 % 16).digitChar, (v / 16 % 16).digitChar,
      (v / 1 % 16).digitChar] := by
    simp [hex8, List.range, List.range.loop]
  rw [h8, h1, h2, h3, h4]
  simp only [hex2, e, Nat.div_div_eq_div_mul, List.cons_append, List.nil_append, Nat.div_one]

theorem checksum_draws {opts : ParsingOptions} (h : opts.add_checksum = true) {bytes : List UInt8} (hl : bytes.length < 2 ^ 61)
    {l : Int} (hl' : Lev l) :
    Draws l (deref (ckOf opts bytes) (dumpChecksum · l)) [.field "checksum" ("0x".toList ++ hex8 (checksum64 bytes))] := by
  obtain ⟨ck, h1, h2, h3, h4⟩ := Props.C19_checksum_fresh bytes hl
  obtain ⟨w, x, y, z, rfl⟩ := checksum_shape h1
  generalize hv : checksum64 bytes = v at h4
  have hs : Buf.start bytes = ⟨bytes, 0, 0⟩ := rfl
  have hc : ckOf opts bytes = some ⟨[w, x, y, z] ++ List.replicate 28 0, 4⟩ := by
    unfold ckOf
    rw [if_pos h, hs, h1]
  rw [hc, deref, dumpChecksum_eq]
  have hb : [w, x, y, z] = be 4 v := by
    rw [← h4]
    simp only [List.cons_append, List.take_succ_cons, List.take_zero]
  rw [hex_bytes _ hb]
  exact draws_fld hl'

/-- The NAL unit is dumped as its item says. -/
def NalUnit.Drawn (σ : Store) (popts : ParsingOptions) (bytes : List UInt8) (n : NalUnit) : Prop :=
  ∀ (l : Int) (opts : ParsingOptions), (opts.add_checksum = true → popts.add_checksum = true ∧ bytes.length < 2 ^ 61) → Lev l →
    DrawsOne l (n.fdump l opts) (nalUnitItem σ opts bytes n)

theorem nalUnitL_draws {nd : Bool} {opts : ParsingOptions} {bytes : List UInt8} {σ σ' : Store} {cnt cnt' : Nat} {n : NalUnit}
    (hσ : σ.Valid) (h : nalUnitL nd opts bytes σ cnt = .val (some n, σ', cnt')) (o k : Nat) :
    NalUnit.Drawn σ opts bytes { n with offset := o, length := k } ∧ σ' = stored σ n.nal_unit_payload := by
  rcases nalUnitL_cases h with ⟨h, _⟩ | ⟨hd, s, p, s', he, h1, h2, _⟩
  · cases h
  · cases he
    refine ⟨?_, payload_stored h2⟩
    intro l dopts hc hl'
    obtain ⟨ok, hh⟩ := Hdr.parsed h1
    unfold NalUnit.fdump nalUnitItem
    refine drawsOne_block hl' fun l hl => ?_
    rw [hex_eq, hex_eq]
    refine draws_cons (draws_when Iff.rfl fun _ _ => draws_cons (draws_fld hl) (draws_nil _)) ?_
    refine draws_cons (draws_when Iff.rfl fun _ _ => draws_cons (draws_fldU hl) (draws_nil _)) ?_
    refine draws_cons (draws_when Iff.rfl fun _ _ => draws_cons (draws_fld hl) (draws_nil _)) ?_
    refine draws_cons (draws_when Iff.rfl fun hk _ =>
      draws_cons (checksum_draws (hc hk).1 (hc hk).2 hl) (draws_nil _)) ?_
    refine draws_cons (draws_item hl (header_draws ok hl) (by simp [headerItem, struct])) ?_
    exact draws_cons (draws_item hl (payload_draws hσ hh h2 dopts hl) (by simp [payloadItem, struct])) (draws_nil _)

theorem parseNalUnit_draws {nd : Bool} {opts : ParsingOptions} {data : List UInt8} {off len : Nat} {σ σ' : Store} {c c' : Nat}
    {n : NalUnit} (hσ : σ.Valid) (hl : data.length < 2 ^ 61) (h : off + len ≤ data.length)
    (he : parseNalUnit nd opts data off len σ c = .val (some n, σ', c')) (o k : Nat) :
    NalUnit.Drawn σ opts (withoutEmulation ((data.drop off).take len)) { n with offset := o, length := k } ∧
      σ' = stored σ n.nal_unit_payload := by
  have := nalUnitL_draws hσ (Props.parseNalUnit_val h hl he) o k
  rw [strip_eq] at this
  exact this

/-! ### Bitstreams -/

/-- What is needed of the NAL units of a bitstream. -/
inductive Drawable (popts : ParsingOptions) (bytes : NalUnit → List UInt8) : Store → List NalUnit → Prop
  | nil (σ : Store) : Drawable popts bytes σ []
  | cons {σ : Store} {n : NalUnit} {ns : List NalUnit} : n.Drawn σ popts (bytes n) →
      Drawable popts bytes (stored σ n.nal_unit_payload) ns → Drawable popts bytes σ (n :: ns)

theorem Drawable.text {popts opts : ParsingOptions} {bytes : NalUnit → List UInt8} {σ : Store} {ns : List NalUnit}
    (h : Drawable popts bytes σ ns) (hb : opts.add_checksum = true → popts.add_checksum = true ∧ ∀ n ∈ ns, (bytes n).length < 2 ^ 61)
    {l : Int} (hl : Lev l) :
    cat (ns.map fun n => cat [n.fdump l opts, .val ['\n']]) = .val (unitsText opts bytes l σ ns) := by
  induction h with
  | nil σ => simp [cat, unitsText, nalUnitItems]
  | @cons σ n ns h1 h2 ih =>
    have e := h1 l opts (fun h => ⟨(hb h).1, (hb h).2 n (by simp)⟩) hl
    unfold DrawsOne at e
    rw [List.map_cons, cat, cat, e]
    rw [ih fun h => ⟨(hb h).1, fun m hm => (hb h).2 m (by simp [hm])⟩]
    simp [cat, unitsText, nalUnitItems]

theorem inOrder_draws {nd : Bool} {opts : ParsingOptions} {us : List (Nat × List UInt8)} {σ σ' : Store} {c c' : Nat}
    {ns : List NalUnit} {bytes : NalUnit → List UInt8}
    (hu : ∀ u ∈ us, u.2.length < 2 ^ 61 ∧ ∀ n : NalUnit, n.offset = u.1 → n.length = u.2.length → bytes n = withoutEmulation u.2)
    (h : InOrder (fun b => parseNalUnit nd opts b 0 b.length) us σ c ns σ' c') (hσ : σ.Valid) : Drawable opts bytes σ ns := by
  induction h with
  | nil σ c => exact .nil σ
  | skip h1 h2 ih => exact ih (fun u hu' => hu u (by simp [hu'])) hσ
  | @unit off b _ _ _ _ _ _ _ n ns h1 h2 ih =>
    have hb := hu (off, b) (by simp)
    have hb1 : b.length < 2 ^ 61 := hb.1
    have hv := Props.nalUnit_valid (data := b) hσ hb1 (by omega) h1
    have hd := parseNalUnit_draws hσ hb1 (by omega) h1 off b.length
    rw [List.drop_zero, List.take_length] at hd
    refine .cons ?_ ?_
    · rw [hb.2 _ rfl rfl]; exact hd.1
    · dsimp only
      rw [← hd.2]
      exact ih (fun u hu' => hu u (by simp [hu'])) hv

theorem take_length_take {α : Type} (l : List α) (n : Nat) : l.take (l.take n).length = l.take n := by
  rw [List.length_take, List.take_eq_take_iff]
  omega

theorem bytesAfterSize_length (data : List UInt8) (k : Nat) (n : NalUnit) : (bytesAfterSize data k n).length ≤ data.length := by
  unfold bytesAfterSize
  split <;> rw [← strip_eq]
  · exact strip_length _
  · generalize ofBE ((data.drop (n.offset - k)).take k) % 2 ^ 64 = m
    have := strip_length ((data.drop n.offset).take m)
    rw [List.length_take, List.length_drop] at this
    omega

theorem bytesIn_length (data : List UInt8) (n : NalUnit) : (bytesIn data n).length ≤ data.length := by
  unfold bytesIn
  rw [← strip_eq]
  have := strip_length ((data.drop n.offset).take n.length)
  rw [List.length_take, List.length_drop] at this
  omega

theorem bitstream_draws {nd : Bool} {opts : ParsingOptions} {data : List UInt8} {σ σ' : Store} {c c' : Nat} {bs : Bitstream}
    (hσ : σ.Valid) (hl : data.length < 2 ^ 61) (h : parseBitstream nd opts data σ c = .val (bs, σ', c')) :
    Drawable opts (bytesIn data) σ bs.nal_units := by
  refine inOrder_draws ?_ ((Props.C18_in_order _ _ _ hl _ _ _ _ _).mp h).2 hσ
  intro u hu
  refine ⟨Props.slice_lt hl _ u hu, ?_⟩
  intro n h1 h2
  simp only [List.mem_map] at hu
  obtain ⟨e, _, rfl⟩ := hu
  dsimp only at h1 h2 ⊢
  unfold bytesIn
  unfold sliceOf at h2 ⊢
  rw [h2, h1, take_length_take]

theorem lengthLoop_draws {nd : Bool} {opts : ParsingOptions} {data : List UInt8} (hl : data.length < 2 ^ 61) {k : Nat} :
    ∀ (f i : Nat) (σ : Store) (c : Nat) (ns : List NalUnit) (σ' : Store) (c' : Nat), (k = 0 → i = 0 ∨ data.length ≤ i) → σ.Valid →
      parseLengthLoop nd opts data k f i σ c = .val (ns, σ', c') → Drawable opts (bytesAfterSize data k) σ ns := by
  have hm := Props.lt_maxVector
  have hm' : maxVector = 2 ^ 63 - 1 := rfl
  intro f
  induction f with
  | zero =>
    intro i σ c ns σ' c' _ hσ h
    rw [parseLengthLoop] at h
    split at h
    · cases h
    · simp only [Res.val.injEq, Prod.mk.injEq] at h
      rw [← h.1]; exact .nil _
  | succ f ih =>
    intro i σ c ns σ' c' hk hσ h
    rw [parseLengthLoop] at h
    split at h
    · rename_i hi
      have hnext : nextNalu data k i = .val none ∨
          ∃ j n, nextNalu data k i = .val (some (j, n)) ∧ (j + n ≤ data.length ∨ maxVector < n) ∧
            (k = 0 → add64 j n = 0 ∨ data.length ≤ add64 j n) ∧
            ∀ x : NalUnit, x.offset = j → bytesAfterSize data k x = withoutEmulation ((data.drop j).take n) := by
        by_cases h0 : k = 0
        · subst h0
          have : i = 0 := by have := hk rfl; omega
          subst this
          refine Or.inr ⟨0, data.length, rfl, Or.inl (by omega), fun _ => Or.inr ?_, ?_⟩
          · rw [add64_eq (by omega)]; omega
          · intro x _
            unfold bytesAfterSize
            rw [if_pos rfl, List.drop_zero, List.take_length]
        · rw [Props.nextNalu_eq hl (by omega) (by omega)]
          split
          · exact Or.inl rfl
          · split
            · exact Or.inl rfl
            · rename_i h2
              have : Props.sizeAt data k i < 2 ^ 64 := Nat.mod_lt _ (by decide)
              refine Or.inr ⟨_, _, rfl, by omega, fun h => absurd h h0, ?_⟩
              intro x hx
              unfold bytesAfterSize Props.sizeAt
              rw [if_neg h0, hx, show i + k - k = i by omega]
      rcases hnext with hn | ⟨j, n, hn, hb, hz, hbs⟩
      · rw [hn, Res.val_bind] at h
        simp only [Res.pure_eq, Res.val.injEq, Prod.mk.injEq] at h
        rw [← h.1]; exact .nil _
      · rw [hn, Res.val_bind] at h
        dsimp only at h
        rcases hb with hb | hb
        · cases hp : parseNalUnit nd opts data j n σ c with
          | bad e => rw [hp, Res.bad_bind] at h; cases h
          | val r =>
            obtain ⟨x, σ1, c1⟩ := r
            rw [hp, Res.val_bind] at h
            have hv := Props.nalUnit_valid hσ hl hb hp
            have h0 : x = none → σ1 = σ := fun h => by
              subst h
              exact (Props.parseNalUnit_none hb hl hp)
            cases hu : parseLengthLoop nd opts data k f (add64 j n) σ1 c1 with
            | bad e => rw [hu, Res.bad_bind] at h; cases h
            | val r =>
              obtain ⟨ns1, σ2, c2⟩ := r
              have := ih _ _ _ _ _ _ hz hv hu
              rw [hu, Res.val_bind] at h
              cases x with
              | none =>
                simp only [Res.pure_eq, Res.val.injEq, Prod.mk.injEq] at h
                rw [← h.1, ← h0 rfl]; exact this
              | some x =>
                simp only [Res.pure_eq, Res.val.injEq, Prod.mk.injEq] at h
                rw [← h.1]
                have hd := parseNalUnit_draws hσ hl hb hp j k
                refine .cons (by rw [hbs _ rfl]; exact hd.1) ?_
                dsimp only
                rw [← hd.2]
                exact this
        · rw [Props.parseNalUnit_huge hb, Res.bad_bind] at h
          cases h
    · simp only [Res.val.injEq, Prod.mk.injEq] at h
      rw [← h.1]; exact .nil _

theorem bitstreamNALULength_draws {nd : Bool} {opts : ParsingOptions} {σ σ' : Store} {data : List UInt8} {k c c' : Nat}
    {bs : Bitstream} (hσ : σ.Valid) (hl : data.length < 2 ^ 61)
    (he : parseBitstreamNALULength nd opts data k σ c = .val (bs, σ', c')) : Drawable opts (bytesAfterSize data k) σ bs.nal_units := by
  unfold parseBitstreamNALULength at he
  cases hu : parseLengthLoop nd opts data k data.length 0 σ c with
  | bad e => rw [hu, Res.bad_bind] at he; cases he
  | val r =>
    obtain ⟨ns, τ, c1⟩ := r
    rw [hu, Res.val_bind] at he
    simp only [Res.pure_eq, Res.val.injEq, Prod.mk.injEq] at he
    rw [← he.1]
    exact lengthLoop_draws hl _ _ _ _ _ _ _ (fun _ => Or.inl rfl) hσ hu

/-! ### RTP -/

theorem runStore_prop2 {α : Type} {nd : Bool} {σ σ' : Store} {p : Prog (α × Store)} {s s' : St} {x : α} {P : α → Store → Prop}
    (hb : s.buf.WF) (hp : ∀ l a τ l', runL nd p l = .ok (a, τ) l' → P a τ)
    (h : runStore nd σ p s = .val (some x, σ', s')) : P x σ' := by
  obtain ⟨b, c⟩ := s
  unfold runStore at h
  rw [run_eq nd p hb c] at h
  generalize hr : runL nd p ⟨b.rem, c⟩ = r at h
  cases r with
  | bad e => simp [Out.mapSt] at h
  | null s => simp [Out.mapSt] at h
  | ok a s =>
    obtain ⟨a, τ⟩ := a
    simp only [Out.mapSt, Res.val.injEq, Prod.mk.injEq, Option.some.injEq] at h
    rw [← h.1, ← h.2.1]
    exact hp _ _ _ _ hr

theorem rtpSingle_draws {nd : Bool} {σ σ' : Store} (hσ : σ.Valid) {s s' : LSt} {x : RtpSingle}
    (h : runL nd (parseRtpSingle σ) s = .ok (x, σ') s') (opts : ParsingOptions) {l : Int} (hl : Lev l) :
    DrawsOne l (x.fdump l opts) (rtpSingleItem σ opts x) := by
  unfold parseRtpSingle at h
  simp only [runL_bind_ok] at h
  obtain ⟨hd, s1, h1, ⟨p, τ⟩, s2, h2, h3⟩ := h
  simp only [Prog.pure_eq, runL_ret, Out.ok.injEq, Prod.mk.injEq] at h3
  obtain ⟨⟨rfl, _⟩, _⟩ := h3
  obtain ⟨ok, hh⟩ := Hdr.parsed h1
  unfold RtpSingle.fdump rtpSingleItem
  refine drawsOne_block hl fun l hl => ?_
  refine draws_cons (draws_item hl (header_draws ok hl) (by simp [headerItem, struct])) ?_
  exact draws_cons (draws_item hl (payload_draws hσ hh h2 opts hl) (by simp [payloadItem, struct])) (draws_nil _)

theorem rtpFuA_draws {nd : Bool} {σ σ' : Store} (hσ : σ.Valid) {ref : Nat} {s s' : LSt} {x : RtpFuA}
    (h : runL nd (parseRtpFuA σ ref) s = .ok (x, σ') s') (opts : ParsingOptions) {l : Int} (hl : Lev l) :
    DrawsOne l (x.fdump l opts) (fuAItem σ opts ref x) := by
  unfold parseRtpFuA at h
  simp only [runL_bind_ok] at h
  obtain ⟨hd, s1, h1, sb, s2, hsb, eb, s3, _, rb, s4, _, ty, s5, _, h⟩ := h
  obtain ⟨ok, hh⟩ := Hdr.parsed h1
  unfold RtpFuA.fdump fuAItem
  split at h
  · rename_i h0
    simp only [Prog.pure_eq, runL_ret, Out.ok.injEq, Prod.mk.injEq] at h
    obtain ⟨⟨rfl, _⟩, _⟩ := h
    refine drawsOne_block hl fun l hl => ?_
    refine draws_cons (draws_item hl (header_draws ok hl) (by simp [headerItem, struct])) ?_
    iterate 4 refine draws_cons (draws_fldU hl) ?_
    refine draws_cons (draws_when Iff.rfl fun hs _ => ?_) (draws_nil _)
    exfalso
    dsimp only at hs
    omega
  · simp only [runL_bind_ok] at h
    obtain ⟨⟨p, τ⟩, s6, h6, h⟩ := h
    simp only [Prog.pure_eq, runL_ret, Out.ok.injEq, Prod.mk.injEq] at h
    obtain ⟨⟨rfl, _⟩, _⟩ := h
    refine drawsOne_block hl fun l hl => ?_
    refine draws_cons (draws_item hl (header_draws ok hl) (by simp [headerItem, struct])) ?_
    iterate 4 refine draws_cons (draws_fldU hl) ?_
    refine draws_cons (draws_when Iff.rfl fun hs _ => draws_cons ?_ (draws_nil _)) (draws_nil _)
    unfold parsePayloadRT at h6
    refine draws_deref hl ⟨p, rfl, ?_⟩ (by simp [payloadItem, struct])
    exact payload_draws hσ ⟨by simp, by simp⟩ h6 opts hl

/-- What is needed of the NAL units of an aggregation packet. -/
inductive UnitsDrawable : Store → List (Nat × NalHeader × Payload) → Prop
  | nil (σ : Store) : UnitsDrawable σ []
  | cons {σ : Store} {n : Nat} {h : NalHeader} {p : Payload} {us : List (Nat × NalHeader × Payload)} : h.Ok →
      (∀ (opts : ParsingOptions) (l : Int), Lev l → DrawsOne l (p.fdump l h.nal_unit_type opts) (payloadItem σ opts h p)) →
      UnitsDrawable (stored σ p) us → UnitsDrawable σ ((n, h, p) :: us)

theorem UnitsDrawable.draws {σ : Store} {us : List (Nat × NalHeader × Payload)} (h : UnitsDrawable σ us) (opts : ParsingOptions)
    {l : Int} (hl : Lev l) :
    Draws l (cat (us.map fun n => cat [
      fldU l "nal_unit_size" n.1,
      item l (n.2.1.fdump l),
      item l (n.2.2.fdump l n.2.1.nal_unit_type opts)])) (stapAItems opts σ us) := by
  induction h with
  | nil σ => exact draws_none l
  | @cons σ n hd p us h1 h2 _ ih =>
    have e : Draws l (cat [fldU l "nal_unit_size" n, item l (hd.fdump l), item l (p.fdump l hd.nal_unit_type opts)])
        (nat "nal_unit_size" n ++ [headerItem hd, payloadItem σ opts hd p]) :=
      draws_cons (bs := [[headerItem hd], [payloadItem σ opts hd p]]) (draws_fldU hl)
        (draws_cons (bs := [[payloadItem σ opts hd p]]) (draws_item hl (header_draws h1 hl) (by simp [headerItem, struct]))
          (draws_cons (draws_item hl (h2 opts l hl) (by simp [payloadItem, struct])) (draws_nil _)))
    rw [stapAItems]
    unfold Draws at *
    rw [List.map_cons, cat, e, ih, lines_append _ (_ ++ _)]
    rfl

theorem stapAUnit_draws {nd : Bool} {σ σ' : Store} (hσ : σ.Valid) {s s' : LSt} {x : Nat × NalHeader × Payload}
    (h : runL nd (parseStapAUnit σ) s = .ok (x, σ') s') : x.2.1.Ok ∧ σ' = stored σ x.2.2 ∧
    ∀ (opts : ParsingOptions) (l : Int), Lev l →
      DrawsOne l (x.2.2.fdump l x.2.1.nal_unit_type opts) (payloadItem σ opts x.2.1 x.2.2) := by
  unfold parseStapAUnit at h
  simp only [runL_bind_ok] at h
  obtain ⟨n, s1, _, r, s2, _, _, s3, _, hd, s4, h4, ⟨p, τ⟩, s5, h5, h⟩ := h
  simp only [Prog.pure_eq, runL_ret, Out.ok.injEq, Prod.mk.injEq] at h
  obtain ⟨⟨rfl, rfl⟩, _⟩ := h
  obtain ⟨ok, hh⟩ := Hdr.parsed h4
  exact ⟨ok, payload_stored h5, fun opts l hl => payload_draws hσ hh h5 opts hl⟩

theorem stapALoop_draws (nd : Bool) : ∀ (f : Nat) (σ : Store) (s : St) (xs : List (Nat × NalHeader × Payload)) (σ' : Store) (s' : St),
    σ.Valid → s.buf.WF → stapALoop nd f σ s = .val (some xs, σ', s') → UnitsDrawable σ xs := by
  intro f
  induction f with
  | zero => intro σ s xs σ' s' _ _ h; simp [stapALoop] at h
  | succ f ih =>
    intro σ s xs σ' s' hσ hb h
    unfold stapALoop at h
    split at h
    · cases hr : runStore nd σ (parseStapAUnit σ) s with
      | bad e => rw [hr, Res.bad_bind] at h; cases h
      | val r =>
        obtain ⟨x, σ1, s1⟩ := r
        rw [hr, Res.val_bind] at h
        have hv := runStore_valid hb hσ (fun l a τ l' => stapAUnit_valid hσ) hr
        cases x with
        | none => simp at h
        | some x =>
          dsimp only at h
          cases hl : stapALoop nd f σ1 s1 with
          | bad e => rw [hl, Res.bad_bind] at h; cases h
          | val r =>
            obtain ⟨ys, σ2, s2⟩ := r
            rw [hl, Res.val_bind] at h
            cases ys with
            | none => simp at h
            | some ys =>
              simp only [Res.pure_eq, Res.val.injEq, Prod.mk.injEq, Option.some.injEq] at h
              rw [← h.1]
              have hd := runStore_prop2 (P := fun x τ => x.2.1.Ok ∧ τ = stored σ x.2.2 ∧
                ∀ (opts : ParsingOptions) (l : Int), Lev l →
                  DrawsOne l (x.2.2.fdump l x.2.1.nal_unit_type opts) (payloadItem σ opts x.2.1 x.2.2)) hb
                (fun l a τ l' h => stapAUnit_draws hσ h) hr
              obtain ⟨n, h, p⟩ := x
              refine .cons hd.1 hd.2.2 ?_
              have e := hd.2.1
              dsimp only at e
              rw [← e]
              exact ih _ _ _ _ _ hv.1 hv.2.1 hl
    · simp only [Res.pure_eq, Res.val.injEq, Prod.mk.injEq, Option.some.injEq] at h
      rw [← h.1]; exact .nil _

theorem nalHeader_res {nd : Bool} {s s' : St} {x : NalHeader} (hb : s.buf.WF)
    (h : (run nd parseNalHeader s).res = .val (some x, s')) : x.Ok := by
  obtain ⟨b, c⟩ := s
  rw [run_eq nd parseNalHeader hb c] at h
  generalize hr : runL nd parseNalHeader ⟨b.rem, c⟩ = r at h
  cases r with
  | bad e => simp [Out.mapSt, Out.res] at h
  | null s => simp [Out.mapSt, Out.res] at h
  | ok a s =>
    simp only [Out.mapSt, Out.res, Res.val.injEq, Prod.mk.injEq, Option.some.injEq] at h
    rw [← h.1]
    exact (Hdr.parsed hr).1

theorem parseRtpStapA_draws {nd : Bool} {σ σ' : Store} {s s' : St} {x : RtpStapA} (hσ : σ.Valid) (hb : s.buf.WF)
    (h : parseRtpStapA nd σ s = .val (some x, σ', s')) (opts : ParsingOptions) {l : Int} (hl : Lev l) :
    DrawsOne l (x.fdump l opts) (stapAItem σ opts x) := by
  obtain ⟨hd, s1, h0, hw⟩ := safe_good nd safe_nalHeader hb
  unfold parseRtpStapA at h
  rw [h0, Res.val_bind] at h
  cases hd with
  | none => simp at h
  | some hd =>
    dsimp only at h
    cases hr : stapALoop nd (s1.buf.remaining + 1) σ s1 with
    | bad e => rw [hr, Res.bad_bind] at h; cases h
    | val r =>
      obtain ⟨ys, σ2, s2⟩ := r
      rw [hr, Res.val_bind] at h
      cases ys with
      | none => simp at h
      | some ys =>
        simp only [Res.pure_eq, Res.val.injEq, Prod.mk.injEq, Option.some.injEq] at h
        rw [← h.1]
        unfold RtpStapA.fdump stapAItem
        refine drawsOne_block hl fun l hl => ?_
        refine draws_cons (draws_item hl (header_draws (nalHeader_res hb h0) hl) (by simp [headerItem, struct])) ?_
        exact draws_cons ((stapALoop_draws nd _ _ _ _ _ _ hσ hw hr).draws opts hl) (draws_nil _)

theorem draws_joined {l : Int} {d : Dump} {name : String} {is : List (List Item)} (h : DrawsOne l d (struct name is)) :
    Draws l d [joinedTo (struct name is)] := by
  unfold DrawsOne at h
  unfold Draws
  rw [h]
  simp [joinedTo, struct, lines, text]

/-- The header and what follows it on the same line. -/
theorem rtp_drawn {σ : Store} {x : Rtp} {l : Int} {opts : ParsingOptions} (hl : Lev l) (hx : x.nal_unit_header.Ok)
    (h : ∀ l, Lev l → Draws l (
      if x.nal_unit_header.nal_unit_type ≤ 23 then deref x.rtp_single (·.fdump l opts)
      else if x.nal_unit_header.nal_unit_type = 24 then deref x.rtp_stapa (·.fdump l opts)
      else if x.nal_unit_header.nal_unit_type = 28 then deref x.rtp_fua (·.fdump l opts)
      else .val []) [
        Shown.opt (x.nal_unit_header.nal_unit_type ≤ 23) [part x.rtp_single fun y => joinedTo (rtpSingleItem σ opts y)],
        Shown.opt (x.nal_unit_header.nal_unit_type = 24) [part x.rtp_stapa fun y => joinedTo (stapAItem σ opts y)],
        Shown.opt (x.nal_unit_header.nal_unit_type = 28) [
          part x.rtp_fua fun y => joinedTo (fuAItem σ opts x.nal_unit_header.nal_ref_idc y)]].flatten) :
    DrawsOne l (x.fdump l opts) (rtpItem σ opts x) := by
  unfold Rtp.fdump rtpItem
  refine drawsOne_block hl fun l hl => ?_
  refine draws_cons (draws_item hl (header_draws hx hl) (by simp [headerItem, struct])) ?_
  exact draws_many [_, _, _] (h l hl) (draws_nil _)

theorem parseRtp_draws {nd : Bool} {σ σ' : Store} {s s' : St} {x : Rtp} (hσ : σ.Valid) (hb : s.buf.WF)
    (h : parseRtp nd σ s = .val (some x, σ', s')) (opts : ParsingOptions) {l : Int} (hl : Lev l) :
    DrawsOne l (x.fdump l opts) (rtpItem σ opts x) := by
  obtain ⟨hd, s1, h0, hw⟩ := safe_good nd safe_nalHeader hb
  unfold parseRtp at h
  rw [h0, Res.val_bind] at h
  cases hd with
  | none => simp at h
  | some hd =>
    have hok := nalHeader_res hb h0
    have hw1 := seek0_wf hw
    dsimp only at h
    generalize s1.buf.seek 0 0 = z at h hw1
    split at h
    · rename_i ht
      cases hr : runStore nd σ (parseRtpSingle σ) { buf := z.2, cnt := s1.cnt } with
      | bad e => rw [hr, Res.bad_bind] at h; cases h
      | val r =>
        obtain ⟨y, σ1, s2⟩ := r
        rw [hr, Res.val_bind] at h
        cases y with
        | none => simp at h
        | some y =>
          simp only [Res.pure_eq, Res.val.injEq, Prod.mk.injEq, Option.map_some, Option.some.injEq] at h
          rw [← h.1]
          refine rtp_drawn hl hok fun l hl => ?_
          dsimp only
          rw [if_pos ht, opt_pos ht, opt_neg (by omega), opt_neg (by omega)]
          refine Draws.only (Draws.only ?_ rfl) rfl
          exact draws_joined (runStore_prop2 (P := fun x _ => DrawsOne l (x.fdump l opts) (rtpSingleItem σ opts x))
            (by exact hw1) (fun _ a τ _ h => rtpSingle_draws hσ h opts hl) hr)
    split at h
    · rename_i ht1 ht
      cases hr : parseRtpStapA nd σ { buf := z.2, cnt := s1.cnt } with
      | bad e => rw [hr, Res.bad_bind] at h; cases h
      | val r =>
        obtain ⟨y, σ1, s2⟩ := r
        rw [hr, Res.val_bind] at h
        cases y with
        | none => simp at h
        | some y =>
          simp only [Res.pure_eq, Res.val.injEq, Prod.mk.injEq, Option.map_some, Option.some.injEq] at h
          rw [← h.1]
          refine rtp_drawn hl hok fun l hl => ?_
          dsimp only
          rw [if_neg ht1, if_pos ht, opt_neg ht1, opt_pos ht, opt_neg (by omega)]
          refine Draws.nil (Draws.only (Draws.only ?_ rfl) rfl)
          exact draws_joined (parseRtpStapA_draws hσ (by exact hw1) hr opts hl)
    split at h
    · rename_i ht1 ht2 ht
      cases hr : runStore nd σ (parseRtpFuA σ hd.nal_ref_idc) { buf := z.2, cnt := s1.cnt } with
      | bad e => rw [hr, Res.bad_bind] at h; cases h
      | val r =>
        obtain ⟨y, σ1, s2⟩ := r
        rw [hr, Res.val_bind] at h
        cases y with
        | none => simp at h
        | some y =>
          simp only [Res.pure_eq, Res.val.injEq, Prod.mk.injEq, Option.map_some, Option.some.injEq] at h
          rw [← h.1]
          refine rtp_drawn hl hok fun l hl => ?_
          dsimp only
          rw [if_neg ht1, if_neg ht2, if_pos ht, opt_neg ht1, opt_neg ht2, opt_pos ht]
          refine Draws.nil (Draws.nil (Draws.only (Draws.only ?_ rfl) rfl))
          exact draws_joined (runStore_prop2 (P := fun x _ => DrawsOne l (x.fdump l opts) (fuAItem σ opts hd.nal_ref_idc x))
            (by exact hw1) (fun _ a τ _ h => rtpFuA_draws hσ h opts hl) hr)
    · rename_i ht1 ht2 ht3
      simp only [Res.pure_eq, Res.val.injEq, Prod.mk.injEq, Option.some.injEq] at h
      rw [← h.1]
      refine rtp_drawn hl hok fun l hl => ?_
      dsimp only
      rw [if_neg ht1, if_neg ht2, if_neg ht3, opt_neg ht1, opt_neg ht2, opt_neg ht3]
      exact draws_none l

end H264
