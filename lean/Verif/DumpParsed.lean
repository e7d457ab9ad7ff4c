import Verif.DumpLemmas
import Verif.RtpLemmas
import Verif.Props.Reach

/-
The dump of what the parsers return.
-/

namespace H264
open Prog H264.Spec

theorem linesD_glue {l : Int} {d e : Dump} (hl : Lev l) (h : BlkD l d) (h' : BlkD0 l e) : LinesD l (cat [item l d, e]) := by
  obtain ⟨s, rfl, h⟩ := h
  obtain ⟨t, rfl, h'⟩ := h'
  refine ⟨indentText l ++ (s ++ t), ?_, LinesAt.item hl (.inr ?_)⟩
  · simp [cat, item]
  · rcases h' with rfl | h'
    · rwa [List.append_nil]
    · rcases h with ⟨e, h1, h2⟩ | ⟨n, e, h1⟩ <;> rcases h' with ⟨e', h3, h4⟩ | ⟨m, e', h3⟩
      · exact .inl ⟨e, h1.append h3, by simp [h2, h4]⟩
      · omega
      · omega
      · obtain rfl : n = m := by omega
        refine .inr ⟨n, e, h1.bal.append h3.bal, ?_, ?_⟩
        · obtain ⟨c, u, rfl, hc⟩ := h1.start
          exact ⟨c, u ++ t, rfl, hc⟩
        · obtain ⟨c, u, rfl, hc1, hc2, hc3⟩ := h3.start
          intro a b he
          rcases List.append_eq_append_iff.mp he with ⟨v, rfl, hv⟩ | ⟨v, rfl, hv⟩
          · obtain ⟨k, rest, g1, g2, g3⟩ := h3.ind v b hv
            refine ⟨k, rest, g1, g2, ?_⟩
            rw [depth_append, h1.bal.closed]
            omega
          · cases v with
            | nil => simp at hv; exact absurd hv.1.symm hc3
            | cons d v =>
              rw [List.cons_append, List.cons.injEq] at hv
              obtain ⟨rfl, rfl⟩ := hv
              obtain ⟨k, rest, rfl, g2, g3⟩ := h1.ind a v rfl
              refine ⟨k, rest ++ c :: u, by simp, ?_, ?_⟩
              · cases rest with
                | nil => simpa using hc1
                | cons x rest => simpa using g2
              · cases rest with
                | nil => simpa [hc2] using g3
                | cons x rest => simpa using g3

theorem SvcHeaderExt.fdump_blk (x : SvcHeaderExt) {l : Int} (hl : Lev l) : BlkD l (x.fdump l) := by
  unfold SvcHeaderExt.fdump
  dumpBlock hl

theorem NalHeader.fdump_blk (x : NalHeader) {l : Int} (hl : Lev l) : BlkD l (x.fdump l) := by
  unfold NalHeader.fdump
  dumpBlock hl
  exact linesD_checked ‹Lev _› fun e _ => linesD_item ‹Lev _› (e.fdump_blk ‹Lev _›).zero

theorem Hrd.fdump_blk (x : Hrd) {l : Int} (hl : Lev l) : BlkD l (x.fdump l) := by
  unfold Hrd.fdump
  dumpBlock hl

/-- A pointer that is there, dumped on a new line. -/
theorem linesD_deref {α : Type} {l : Int} {p : Option α} {f : α → Dump} (hl : Lev l) (hp : ∃ x, p = some x ∧ BlkD l (f x)) :
    LinesD l (item l (deref p f)) := linesD_item hl (blkD_deref hp).zero

theorem Vui.fdump_blk {x : Vui} (hx : x.Ok) {l : Int} (hl : Lev l) : BlkD l (x.fdump l) := by
  unfold Vui.fdump
  dumpBlock hl
  · have h := hx.nal_hrd
    have h2 := hx.nal_hrd_flag
    have h3 := ‹x.nal_hrd_parameters_present_flag ≠ 0›
    rw [if_pos (by omega)] at h
    obtain ⟨y, hy, _⟩ := h
    exact linesD_deref ‹Lev _› ⟨y, hy, y.fdump_blk ‹Lev _›⟩
  · have h := hx.vcl_hrd
    have h2 := hx.vcl_hrd_flag
    have h3 := ‹x.vcl_hrd_parameters_present_flag ≠ 0›
    rw [if_pos (by omega)] at h
    obtain ⟨y, hy, _⟩ := h
    exact linesD_deref ‹Lev _› ⟨y, hy, y.fdump_blk ‹Lev _›⟩

theorem plain_profile (p : ProfileType) : Plain (profileTypeToString p).toList := by
  have : (profileTypeToString p).toList.all (fun c => c != '\n' && c != '{' && c != '}') = true := by
    cases p <;> decide +kernel
  rw [List.all_eq_true] at this
  intro c hc
  simpa [and_assoc] using this c hc

theorem SpsData.fdump_blk {x : SpsData} (hx : x.InRange) (opts : ParsingOptions) {l : Int} (hl : Lev l) :
    BlkD l (x.fdump l opts) := by
  unfold SpsData.fdump
  dumpBlock hl
  · exact linesD_fld ‹Lev _› (by decide +kernel) (plain_profile _)
  · have h := hx.2.vui
    have h2 := hx.2.vui_flag
    have h3 := ‹x.vui_parameters_present_flag ≠ 0›
    rw [if_pos (by omega)] at h
    obtain ⟨y, hy, ok⟩ := h
    exact linesD_deref ‹Lev _› ⟨y, hy, y.fdump_blk ok ‹Lev _›⟩
  · unfold SpsData.dumpResolution
    rw [getResolution_eq hx.1 hx.2, Res.val_bind]
    dsimp only [Option.getD_some]
    dump

theorem dumpSps_blk {x : SpsData} (hx : x.InRange) (opts : ParsingOptions) {l : Int} (hl : Lev l) :
    BlkD l (dumpSps x l opts) := by
  unfold dumpSps
  dumpBlock hl
  exact linesD_item ‹Lev _› (x.fdump_blk hx opts ‹Lev _›).zero

theorem Pps.fdump_blk (x : Pps) {l : Int} (hl : Lev l) : BlkD l (x.fdump l) := by
  unfold Pps.fdump
  dumpBlock hl

theorem SpsSvcExt.fdump_blk (x : SpsSvcExt) {l : Int} (hl : Lev l) : BlkD l (x.fdump l) := by
  unfold SpsSvcExt.fdump
  dumpBlock hl

theorem SubsetSps.fdump_blk {x : SubsetSps} (hx : x.InRange) (opts : ParsingOptions) {l : Int} (hl : Lev l) :
    BlkD l (x.fdump l opts) := by
  unfold SubsetSps.fdump
  dumpBlock hl
  · exact linesD_item ‹Lev _› (SpsData.fdump_blk hx.sps opts ‹Lev _›).zero
  · have h := hx.svc
    rw [if_pos (by assumption)] at h
    obtain ⟨y, hy, _⟩ := h
    exact linesD_deref ‹Lev _› ⟨y, hy, y.fdump_blk ‹Lev _›⟩

theorem SpsExt.fdump_blk (x : SpsExt) {l : Int} (hl : Lev l) : BlkD l (x.fdump l) := by
  unfold SpsExt.fdump
  dumpBlock hl

theorem RefPicListMod.fdump_blk (x : RefPicListMod) {l : Int} (hl : Lev l) : BlkD l (x.fdump l) := by
  unfold RefPicListMod.fdump
  dumpBlock hl

theorem DecRefPicMarking.fdump_blk (x : DecRefPicMarking) {l : Int} (hl : Lev l) : BlkD l (x.fdump l) := by
  unfold DecRefPicMarking.fdump
  dumpBlock hl

theorem PredWeightTable.fdump_blk (x : PredWeightTable) {l : Int} (hl : Lev l) : BlkD l (x.fdump l) := by
  unfold PredWeightTable.fdump
  dumpBlock hl

theorem SliceHeader.fdump_blk {ref type : Nat} {s : SpsData} {p : Pps} (hp : p.InRange) {x : SliceHeader}
    (hx : x.Ok ref type s p) {l : Int} (hl : Lev l) : BlkD l (x.fdump l) := by
  obtain ⟨hB, hP, _⟩ := sliceTypes hx.range.slice_type
  unfold SliceHeader.fdump
  dumpBlock hl
  · obtain ⟨y, hy, _⟩ := hx.range.modification
    exact linesD_deref ‹Lev _› ⟨y, hy, y.fdump_blk ‹Lev _›⟩
  · have h := hx.range.weights
    have hc := ‹(x.weighted_pred_flag ≠ 0 ∧ isPSP x.slice_type) ∨ (x.weighted_bipred_idc = 1 ∧ isB x.slice_type)›
    rw [hx.copied.weighted_pred_flag, hx.copied.weighted_bipred_idc, hP, hB] at hc
    have h2 := hp.weighted_pred_flag
    rw [if_pos (by unfold weightsPresent; omega)] at h
    obtain ⟨y, hy, _⟩ := h
    exact linesD_deref ‹Lev _› ⟨y, hy, y.fdump_blk ‹Lev _›⟩
  · have h := hx.range.marking
    rw [if_pos (by assumption)] at h
    obtain ⟨y, hy, _⟩ := h
    exact linesD_deref ‹Lev _› ⟨y, hy, y.fdump_blk ‹Lev _›⟩

theorem ScalHeader.fdump_blk {x : ScalCtx} (hp : x.p.InRange) (hn : x.n.Ok) {d0 d1 : Nat} {h : ScalHeader} (hx : h.Ok x d0 d1)
    {l : Int} (hl : Lev l) : BlkD l (h.fdump l) := by
  unfold ScalHeader.fdump
  dumpBlock hl
  all_goals
    have hq := ‹h.copied.quality_id = 0›
    have hr := hx.ref
    rw [hx.copied.quality_id] at hq
    rw [if_pos hq] at hr
  · obtain ⟨y, hy, _⟩ := hr.modification
    exact linesD_deref ‹Lev _› ⟨y, hy, y.fdump_blk ‹Lev _›⟩
  · have h1 := hr.weights
    have hc := ‹(h.copied.weighted_pred_flag ≠ 0 ∧ isEP h.slice_type) ∨
      (h.copied.weighted_bipred_idc = 1 ∧ isB h.slice_type)›
    have hc2 := ‹h.copied.no_inter_layer_pred_flag ≠ 0 ∨ h.ref.base_pred_weight_table_flag = 0›
    rw [hx.copied.weighted_pred_flag, hx.copied.weighted_bipred_idc, if_pos hq, if_pos hq] at hc
    rw [hx.copied.no_inter_layer_pred_flag] at hc2
    have h2 := hp.weighted_pred_flag
    have h3 := hx.slice_type
    have h4 := hn.no_inter_layer_pred_flag
    unfold isEP isB at hc
    rw [if_pos ⟨by unfold scalWeights; omega, by omega⟩] at h1
    obtain ⟨y, hy, _⟩ := h1
    exact linesD_deref ‹Lev _› ⟨y, hy, y.fdump_blk ‹Lev _›⟩
  · have h1 := hr.marking
    have hc := ‹h.copied.nal_ref_idc ≠ 0›
    rw [hx.copied.nal_ref_idc] at hc
    rw [if_pos hc] at h1
    obtain ⟨y, hy, _⟩ := h1
    exact linesD_deref ‹Lev _› ⟨y, hy, y.fdump_blk ‹Lev _›⟩
  · exfalso
    have hc := ‹(h.copied.use_ref_base_pic_flag ≠ 0 ∨ h.ref.store_ref_base_pic_flag ≠ 0) ∧ h.copied.idr_flag = 0›
    have hc1 := ‹h.copied.nal_ref_idc ≠ 0›
    have hc2 := ‹h.copied.slice_header_restriction_flag = 0›
    rw [hx.copied.nal_ref_idc] at hc1
    rw [hx.copied.restriction] at hc2
    rw [hx.copied.use_ref_base_pic_flag, if_pos ⟨hq, hc1, hc2⟩, hx.copied.idr_flag] at hc
    have h1 := hr.store
    rw [if_pos ⟨hc1, hc2⟩] at h1
    have h2 := hn.use_ref_base_pic_flag
    have h3 := hr.no_base_marking hc1 hc2 (by omega)
    omega

theorem PrefixSvc.fdump_blk (x : PrefixSvc) {l : Int} (hl : Lev l) : BlkD l (x.fdump l) := by
  unfold PrefixSvc.fdump
  dumpBlock hl

theorem PrefixRbsp.fdump_blk (x : PrefixRbsp) {l : Int} (hl : Lev l) : BlkD l (x.fdump l) := by
  unfold PrefixRbsp.fdump
  dumpBlock hl
  exact linesD_checked ‹Lev _› fun e _ => linesD_item ‹Lev _› (e.fdump_blk ‹Lev _›).zero

/-! ### Payloads -/

/-- The payload of a NAL unit of this type can be dumped. -/
def Payload.Shows (type : Nat) (p : Payload) : Prop :=
  ∀ (l : Int) (opts : ParsingOptions), Lev l → BlkD l (p.fdump l type opts)

theorem sliceLayer_blk {nd : Bool} {σ : Store} (hσ : σ.Valid) {ref type : Nat} {s s' : LSt} {x : SliceLayer}
    (h : runL nd (parseSliceLayer σ ref type) s = .ok x s') {l : Int} (hl : Lev l) : BlkD l (x.fdump l) := by
  unfold parseSliceLayer at h
  rw [runL_bind_ok] at h
  obtain ⟨y, s1, h1, h⟩ := h
  simp only [Prog.pure_eq, runL_ret, Out.ok.injEq] at h
  obtain ⟨rfl, _⟩ := h
  obtain ⟨⟨p, sp, hp, _, ok⟩, _⟩ := (codec_sliceHeader hσ.inRange ref type nd s.rem s.cnt y s1).mp h1
  unfold SliceLayer.fdump
  dumpBlock hl
  exact linesD_deref ‹Lev _› ⟨y, rfl, y.fdump_blk (hσ.pps _ _ hp).1 ok ‹Lev _›⟩

theorem sliceLayerExt_blk {nd : Bool} {σ : Store} (hσ : σ.Valid) {n : NalHeader} (hn : ∀ e, n.svc_extension = some e → e.Ok)
    {s s' : LSt} {x : SliceLayerExt} (h : runL nd (parseSliceLayerExt σ n) s = .ok x s') {l : Int} (hl : Lev l) :
    BlkD l (x.fdump l) := by
  unfold parseSliceLayerExt at h
  dsimp only at h
  unfold SliceLayerExt.fdump
  refine blkD_block hl (by decide +kernel) ?_
  have hl' := Lev.incr hl
  generalize indentIncr l = l' at hl' ⊢
  refine linesD_cons ?_ (linesD_nil hl')
  split at h
  · rename_i hf
    rw [runL_bind_ok] at h
    obtain ⟨y, s1, h1, h⟩ := h
    simp only [Prog.pure_eq, runL_ret, Out.ok.injEq] at h
    obtain ⟨rfl, _⟩ := h
    rw [if_pos hf]
    refine linesD_item hl' (blkD0_checked ?_)
    rintro z rfl
    rw [runL_attempt] at h1
    cases hr : runL nd (parseScalHeader σ n) s with
    | bad e => rw [hr] at h1; simp at h1
    | null s => rw [hr] at h1; simp at h1
    | ok a s2 =>
      rw [hr] at h1
      simp only [Out.ok.injEq, Option.some.injEq] at h1
      obtain ⟨rfl, rfl⟩ := h1
      obtain ⟨⟨c, hc, ok⟩, _⟩ := (codec_scalHeader hσ hn nd s.rem s.cnt a s2).mp hr
      exact a.fdump_blk (hσ.pps _ _ hc.1).1 (hn _ hc.2.2.1) ok hl'
  split at h
  · rename_i hf hg
    simp only [Prog.pure_eq, runL_ret, Out.ok.injEq] at h
    obtain ⟨rfl, _⟩ := h
    rw [if_neg hf, if_pos hg]
    exact linesD_nil hl'
  · rename_i hf hg
    rw [runL_bind_ok] at h
    obtain ⟨y, s1, h1, h⟩ := h
    simp only [Prog.pure_eq, runL_ret, Out.ok.injEq] at h
    obtain ⟨rfl, _⟩ := h
    rw [if_neg hf, if_neg hg]
    obtain ⟨⟨p, sp, hp, _, ok⟩, _⟩ := (codec_sliceHeader hσ.inRange _ _ nd s.rem s.cnt y s1).mp h1
    exact linesD_deref hl' ⟨y, rfl, y.fdump_blk (hσ.pps _ _ hp).1 ok hl'⟩

theorem Payload.fdump_blk {type : Nat} {p : Payload} {l : Int} (opts : ParsingOptions) (hl : Lev l)
    (h1 : ∀ l x, p.slice_layer_without_partitioning_rbsp = some x → Lev l → BlkD l (x.fdump l))
    (h2 : ∀ x, p.sps = some x → x.InRange)
    (h3 : ∀ x, p.subset_sps = some x → x.InRange)
    (h4 : ∀ l x, p.slice_layer_extension_rbsp = some x → Lev l → BlkD l (x.fdump l)) : BlkD l (p.fdump l type opts) := by
  unfold Payload.fdump
  dumpBlock hl
  have hl' := ‹Lev _›
  refine linesD_item hl' ?_
  split
  · exact blkD0_checked fun x e => h1 _ x e hl'
  split
  · exact blkD0_checked fun x e => dumpSps_blk (h2 x e) opts hl'
  split
  · exact blkD0_checked fun x e => x.fdump_blk hl'
  split
  · exact blkD0_checked fun x e => x.fdump_blk hl'
  split
  · exact blkD0_checked fun x e => x.fdump_blk (h3 x e) opts hl'
  split
  · exact blkD0_checked fun x e => h4 _ x e hl'
  exact ⟨[], rfl, .inl rfl⟩

/-- Whatever the payload parser returns can be dumped, as a payload of any type. -/
theorem payload_shows {nd : Bool} {σ σ' : Store} (hσ : σ.Valid) {n : NalHeader} (hn : ∀ e, n.svc_extension = some e → e.Ok)
    {s s' : LSt} {p : Payload} (h : runL nd (parsePayload σ n) s = .ok (p, σ') s') (type : Nat) : p.Shows type := by
  intro l opts hl
  rw [runL_payload] at h
  revert h
  split
  · generalize hr : runL nd (parseSliceLayer σ n.nal_ref_idc n.nal_unit_type) s = r
    intro h
    refine Payload.fdump_blk opts hl ?_ ?_ ?_ ?_ <;>
    · cases r <;> simp at h <;> obtain ⟨⟨rfl, _⟩, _⟩ := h <;> try (simp; done)
      try (rintro l x ⟨⟩ hl; exact sliceLayer_blk hσ hr hl)
  split
  · generalize hr : runL nd parseSps s = r
    intro h
    refine Payload.fdump_blk opts hl ?_ ?_ ?_ ?_ <;>
    · cases r <;> simp at h <;> obtain ⟨⟨rfl, _⟩, _⟩ := h <;> try (simp; done)
      try (rintro x ⟨⟩; have := spsData_ranges nd ((sps_iff nd s _).mp ⟨_, hr⟩).choose_spec; exact ⟨this.1, this.2.1⟩)
  split
  · generalize hr : runL nd (parsePps 1) s = r
    intro h
    refine Payload.fdump_blk opts hl ?_ ?_ ?_ ?_ <;>
    · cases r <;> simp at h <;> obtain ⟨⟨rfl, _⟩, _⟩ := h <;> simp
  split
  · generalize hr : runL nd (parsePrefixPayload n) s = r
    intro h
    refine Payload.fdump_blk opts hl ?_ ?_ ?_ ?_ <;>
    · cases r <;> simp at h <;> obtain ⟨⟨rfl, _⟩, _⟩ := h <;> simp
  split
  · generalize hr : runL nd parseSubsetSps s = r
    intro h
    refine Payload.fdump_blk opts hl ?_ ?_ ?_ ?_ <;>
    · cases r <;> simp at h <;> obtain ⟨⟨rfl, _⟩, _⟩ := h <;> try (simp; done)
      try (rintro x ⟨⟩; exact subsetSps_ranges nd hr)
  split
  · generalize hr : runL nd (parseSliceLayerExt σ n) s = r
    intro h
    refine Payload.fdump_blk opts hl ?_ ?_ ?_ ?_ <;>
    · cases r <;> simp at h <;> obtain ⟨⟨rfl, _⟩, _⟩ := h <;> try (simp; done)
      try (rintro l x ⟨⟩ hl; exact sliceLayerExt_blk hσ hn hr hl)
  · intro h
    simp only [Out.ok.injEq, Prod.mk.injEq] at h
    obtain ⟨⟨rfl, _⟩, _⟩ := h
    refine Payload.fdump_blk opts hl ?_ ?_ ?_ ?_ <;> simp

theorem header_svc {nd : Bool} {s s' : LSt} {n : NalHeader} (h : runL nd parseNalHeader s = .ok n s') :
    ∀ e, n.svc_extension = some e → e.Ok := by
  obtain ⟨ok, _⟩ := (codec_nalHeader nd s.rem s.cnt n s').mp h
  have h1 := ok.ext
  split at h1
  · obtain ⟨_, e, he, ok⟩ := h1
    intro e' he'
    rw [he] at he'
    cases he'; exact ok
  · rw [h1.2]; simp

/-! ### NAL units -/

theorem plain_digitChar {n : Nat} (h : n < 16) : n.digitChar ≠ '\n' ∧ n.digitChar ≠ '{' ∧ n.digitChar ≠ '}' := by
  have : ∀ n < 16, n.digitChar ≠ '\n' ∧ n.digitChar ≠ '{' ∧ n.digitChar ≠ '}' := by decide
  exact this n h

theorem plain_toDigits16 (v : Nat) : Plain (Nat.toDigits 16 v) := by
  induction v using Nat.strongRecOn with
  | ind v ih =>
    rw [Nat.toDigits_eq_if (by decide)]
    split
    · exact Plain.cons (plain_digitChar ‹_›) Plain.nil
    · exact (ih _ (by omega)).append (Plain.cons (plain_digitChar (by omega)) Plain.nil)

theorem plain_hex08 (v : Nat) : Plain (hex08 v) := by
  unfold hex08
  refine Plain.cons (by decide) (Plain.cons (by decide) (Plain.append ?_ (plain_toDigits16 v)))
  intro c h
  rw [List.eq_of_mem_replicate h]
  decide

/-- The four bytes of a checksum. -/
theorem checksum_shape {b b' : Buf} {ck : NaluChecksum} (h : getNaluChecksum b = .val (ck, b')) :
    ∃ w x y z, ck = ⟨[w, x, y, z] ++ List.replicate 28 0, 4⟩ := by
  unfold getNaluChecksum at h
  dsimp only [Buf.currentOffset] at h
  cases h1 : checksumWords (b.remaining + 1) b 0 with
  | bad e => rw [h1, Res.bad_bind] at h; cases h
  | val r =>
    obtain ⟨sum, b1⟩ := r
    rw [h1, Res.val_bind] at h
    cases h2 : checksumTail 5 b1 0 0 with
    | bad e => dsimp only at h; rw [h2, Res.bad_bind] at h; cases h
    | val r =>
      obtain ⟨i, val, b2⟩ := r
      dsimp only at h
      rw [h2, Res.val_bind] at h
      dsimp only at h
      simp only [Res.pure_eq, Res.val.injEq, Prod.mk.injEq] at h
      exact ⟨_, _, _, _, h.1.symm⟩

/-- Two hexadecimal digits of a byte. -/
def hex2 (x : UInt8) : Text := [Nat.digitChar (x.toNat / 16), Nat.digitChar (x.toNat % 16)]

theorem plain_hex2 (x : UInt8) : Plain (hex2 x) := by
  have := x.toNat_lt
  exact Plain.cons (plain_digitChar (by omega)) (Plain.cons (plain_digitChar (by omega)) Plain.nil)

theorem dumpChecksum_eq (w x y z : UInt8) (l : Int) : dumpChecksum ⟨[w, x, y, z] ++ List.replicate 28 0, 4⟩ l =
    fld l "checksum" ('0' :: 'x' :: (hex2 w ++ hex2 x ++ hex2 y ++ hex2 z)) := by
  have hd : ∀ n < 16, Char.ofNat (UInt8.ofNat (hexDigit n)).toNat = Nat.digitChar n ∧ UInt8.ofNat (hexDigit n) ≠ 0 := by decide
  have key : ∀ c0 c1 c2 c3 c4 c5 c6 c7 : UInt8, c0 ≠ 0 → c1 ≠ 0 → c2 ≠ 0 → c3 ≠ 0 → c4 ≠ 0 → c5 ≠ 0 → c6 ≠ 0 → c7 ≠ 0 →
      cString ([c0, c1, c2, c3, c4, c5, c6, c7] ++ List.replicate 56 0) = .val [c0, c1, c2, c3, c4, c5, c6, c7] := by
    intro c0 c1 c2 c3 c4 c5 c6 c7 h0 h1 h2 h3 h4 h5 h6 h7
    simp [cString, List.replicate, h0, h1, h2, h3, h4, h5, h6, h7]
  have dump : checksumDump ⟨[w, x, y, z] ++ List.replicate 28 0, 4⟩ 64 4 0 0 (List.replicate 64 0) = .val
      ([UInt8.ofNat (hexDigit (w.toNat / 16)), UInt8.ofNat (hexDigit (w.toNat % 16)),
        UInt8.ofNat (hexDigit (x.toNat / 16)), UInt8.ofNat (hexDigit (x.toNat % 16)),
        UInt8.ofNat (hexDigit (y.toNat / 16)), UInt8.ofNat (hexDigit (y.toNat % 16)),
        UInt8.ofNat (hexDigit (z.toNat / 16)), UInt8.ofNat (hexDigit (z.toNat % 16))] ++ List.replicate 56 0) := by
    simp only [checksumDump, load, store, List.replicate, List.cons_append, List.nil_append, List.getElem?_cons_zero,
      List.getElem?_cons_succ, Res.val_bind]
    simp [List.set]
  have hw := w.toNat_lt; have hx := x.toNat_lt; have hy := y.toNat_lt; have hz := z.toNat_lt
  unfold dumpChecksum
  dsimp only
  rw [dump, Res.val_bind, key, Res.val_bind]
  · simp only [List.map_cons, List.map_nil, hex2, List.cons_append, List.nil_append]
    rw [(hd _ (by omega)).1, (hd _ (by omega)).1, (hd _ (by omega)).1, (hd _ (by omega)).1, (hd _ (by omega)).1, (hd _ (by omega)).1,
      (hd _ (by omega)).1, (hd _ (by omega)).1]
  all_goals exact (hd _ (by omega)).2

theorem ckOf_some {opts : ParsingOptions} (h : opts.add_checksum = true) {bytes : List UInt8} (hl : bytes.length < 2 ^ 61) :
    ∃ w x y z, ckOf opts bytes = some ⟨[w, x, y, z] ++ List.replicate 28 0, 4⟩ := by
  obtain ⟨ck, hck⟩ := getNaluChecksum_total _ (Buf.start_wf hl)
  obtain ⟨w, x, y, z, rfl⟩ := checksum_shape hck
  unfold ckOf
  rw [if_pos h, hck]
  exact ⟨w, x, y, z, rfl⟩

/-- The NAL unit can be dumped, with the checksum only if it was computed. -/
def NalUnit.Shows (popts : ParsingOptions) (n : NalUnit) : Prop :=
  ∀ (l : Int) (opts : ParsingOptions), (opts.add_checksum = true → popts.add_checksum = true) → Lev l → BlkD l (n.fdump l opts)

theorem NalUnit.fdump_blk {n : NalUnit} {l : Int} {opts : ParsingOptions} (hl : Lev l)
    (hc : opts.add_checksum = true → ∃ w x y z, n.checksum = some ⟨[w, x, y, z] ++ List.replicate 28 0, 4⟩)
    (hp : n.nal_unit_payload.Shows n.nal_unit_header.nal_unit_type) : BlkD l (n.fdump l opts) := by
  unfold NalUnit.fdump
  dumpBlock hl
  · exact linesD_fld ‹Lev _› (by decide +kernel) (plain_hex08 _)
  · exact linesD_fld ‹Lev _› (by decide +kernel) (plain_hex08 _)
  · obtain ⟨w, x, y, z, e⟩ := hc ‹_›
    rw [e]
    show LinesD _ (dumpChecksum _ _)
    rw [dumpChecksum_eq]
    refine linesD_fld ‹Lev _› (by decide +kernel) (Plain.cons (by decide) (Plain.cons (by decide) ?_))
    exact (((plain_hex2 w).append (plain_hex2 x)).append (plain_hex2 y)).append (plain_hex2 z)
  · exact linesD_item ‹Lev _› (NalHeader.fdump_blk _ ‹Lev _›).zero
  · exact linesD_item ‹Lev _› (hp _ _ ‹Lev _›).zero

theorem nalUnitL_shows {nd : Bool} {opts : ParsingOptions} {bytes : List UInt8} {σ σ' : Store} {cnt cnt' : Nat} {n : NalUnit}
    (hσ : σ.Valid) (hl : bytes.length < 2 ^ 61) (h : nalUnitL nd opts bytes σ cnt = .val (some n, σ', cnt')) (o k : Nat) :
    NalUnit.Shows opts { n with offset := o, length := k } := by
  rcases nalUnitL_cases h with ⟨h, _⟩ | ⟨hd, s, p, s', he, h1, h2, _⟩
  · cases h
  · cases he
    intro l dopts hc hl'
    exact NalUnit.fdump_blk hl' (fun h => ckOf_some (hc h) hl) (payload_shows hσ (header_svc h1) h2 _)

theorem parseNalUnit_shows {nd : Bool} {opts : ParsingOptions} {data : List UInt8} {off len : Nat} {σ σ' : Store} {c c' : Nat}
    {n : NalUnit} (hσ : σ.Valid) (hl : data.length < 2 ^ 61) (h : off + len ≤ data.length)
    (he : parseNalUnit nd opts data off len σ c = .val (some n, σ', c')) (o k : Nat) :
    NalUnit.Shows opts { n with offset := o, length := k } := by
  have hs := strip_length ((data.drop off).take len)
  have hs2 : ((data.drop off).take len).length ≤ data.length := by rw [List.length_take, List.length_drop]; omega
  exact nalUnitL_shows hσ (by omega) (Props.parseNalUnit_val h hl he) o k

/-! ### Bitstreams -/

/-- What holds of every parsed NAL unit, wherever it is said to be, holds of those of a bitstream. -/
theorem inOrder_all {nd : Bool} {P : NalUnit → Prop} {opts : ParsingOptions} {us : List (Nat × List UInt8)} {σ σ' : Store} {c c' : Nat}
    {ns : List NalUnit} (hp : ∀ (b : List UInt8) (off len : Nat) (σ σ' : Store) (c c' : Nat) (n : NalUnit) (o k : Nat), σ.Valid → b.length < 2 ^ 61 →
      off + len ≤ b.length → parseNalUnit nd opts b off len σ c = .val (some n, σ', c') → P { n with offset := o, length := k })
    (hu : ∀ u ∈ us, u.2.length < 2 ^ 61)
    (h : InOrder (fun b => parseNalUnit nd opts b 0 b.length) us σ c ns σ' c') (hσ : σ.Valid) : ∀ n ∈ ns, P n := by
  induction h with
  | nil σ c => simp
  | skip h1 h2 ih => exact ih (fun u hu' => hu u (by simp [hu'])) hσ
  | @unit off bytes _ _ _ _ _ _ _ n ns h1 h2 ih =>
    have hb : bytes.length < 2 ^ 61 := hu (off, bytes) (by simp)
    have hv := Props.nalUnit_valid (data := bytes) hσ hb (by omega) h1
    intro m hm
    rcases List.mem_cons.mp hm with rfl | hm
    · exact hp bytes _ _ _ _ _ _ _ _ _ hσ hb (by omega) h1
    · exact ih (fun u hu' => hu u (by simp [hu'])) hv m hm

theorem bitstream_all {nd : Bool} {P : NalUnit → Prop} {opts : ParsingOptions} {data : List UInt8} {σ σ' : Store} {c c' : Nat} {bs : Bitstream}
    (hp : ∀ (b : List UInt8) (off len : Nat) (σ σ' : Store) (c c' : Nat) (n : NalUnit) (o k : Nat), σ.Valid → b.length < 2 ^ 61 →
      off + len ≤ b.length → parseNalUnit nd opts b off len σ c = .val (some n, σ', c') → P { n with offset := o, length := k })
    (hσ : σ.Valid) (hl : data.length < 2 ^ 61) (h : parseBitstream nd opts data σ c = .val (bs, σ', c')) :
    ∀ n ∈ bs.nal_units, P n :=
  inOrder_all hp (Props.slice_lt hl _) ((Props.C18_in_order _ _ _ hl _ _ _ _ _).mp h).2 hσ

theorem lengthLoop_all {nd : Bool} {P : NalUnit → Prop} {opts : ParsingOptions} {data : List UInt8}
    (hq : ∀ (b : List UInt8) (off len : Nat) (σ σ' : Store) (c c' : Nat) (n : NalUnit) (o k : Nat), σ.Valid → b.length < 2 ^ 61 →
      off + len ≤ b.length → parseNalUnit nd opts b off len σ c = .val (some n, σ', c') → P { n with offset := o, length := k })
     (hl : data.length < 2 ^ 61) {k : Nat} :
    ∀ (f i : Nat) (σ : Store) (c : Nat) (ns : List NalUnit) (σ' : Store) (c' : Nat), (k = 0 → i = 0 ∨ data.length ≤ i) → σ.Valid →
      parseLengthLoop nd opts data k f i σ c = .val (ns, σ', c') → ∀ n ∈ ns, P n := by
  have hm := Props.lt_maxVector
  have hm' : maxVector = 2 ^ 63 - 1 := rfl
  intro f
  induction f with
  | zero =>
    intro i σ c ns σ' c' _ hσ h
    rw [parseLengthLoop] at h
    split at h
    · cases h
    · simp only [Res.val.injEq, Prod.mk.injEq] at h
      rw [← h.1]; simp
  | succ f ih =>
    intro i σ c ns σ' c' hk hσ h
    rw [parseLengthLoop] at h
    split at h
    · rename_i hi
      have hnext : nextNalu data k i = .val none ∨
          ∃ j n, nextNalu data k i = .val (some (j, n)) ∧ (j + n ≤ data.length ∨ maxVector < n) ∧
            (k = 0 → add64 j n = 0 ∨ data.length ≤ add64 j n) := by
        by_cases h0 : k = 0
        · subst h0
          have : i = 0 := by have := hk rfl; omega
          subst this
          refine Or.inr ⟨0, data.length, rfl, Or.inl (by omega), fun _ => Or.inr ?_⟩
          rw [add64_eq (by omega)]; omega
        · rw [Props.nextNalu_eq hl (by omega) (by omega)]
          split
          · exact Or.inl rfl
          · split
            · exact Or.inl rfl
            · rename_i h2
              have : Props.sizeAt data k i < 2 ^ 64 := Nat.mod_lt _ (by decide)
              exact Or.inr ⟨_, _, rfl, by omega, fun h => absurd h h0⟩
      rcases hnext with hn | ⟨j, n, hn, hb, hz⟩
      · rw [hn, Res.val_bind] at h
        simp only [Res.pure_eq, Res.val.injEq, Prod.mk.injEq] at h
        rw [← h.1]; simp
      · rw [hn, Res.val_bind] at h
        dsimp only at h
        rcases hb with hb | hb
        · cases hp : parseNalUnit nd opts data j n σ c with
          | bad e => rw [hp, Res.bad_bind] at h; cases h
          | val r =>
            obtain ⟨x, σ1, c1⟩ := r
            rw [hp, Res.val_bind] at h
            have hv := Props.nalUnit_valid hσ hl hb hp
            cases hu : parseLengthLoop nd opts data k f (add64 j n) σ1 c1 with
            | bad e => rw [hu, Res.bad_bind] at h; cases h
            | val r =>
              obtain ⟨ns1, σ2, c2⟩ := r
              have := ih _ _ _ _ _ _ hz hv hu
              rw [hu, Res.val_bind] at h
              cases x with
              | none =>
                simp only [Res.pure_eq, Res.val.injEq, Prod.mk.injEq] at h
                rw [← h.1]; exact this
              | some x =>
                simp only [Res.pure_eq, Res.val.injEq, Prod.mk.injEq] at h
                rw [← h.1]
                intro m hm
                rcases List.mem_cons.mp hm with rfl | hm
                · exact hq data _ _ _ _ _ _ _ _ _ hσ hl hb hp
                · exact this m hm
        · rw [Props.parseNalUnit_huge hb, Res.bad_bind] at h
          cases h
    · simp only [Res.val.injEq, Prod.mk.injEq] at h
      rw [← h.1]; simp

theorem bitstreamNALULength_all {nd : Bool} {P : NalUnit → Prop} {opts : ParsingOptions} {σ σ' : Store} {data : List UInt8} {k c c' : Nat}
    {bs : Bitstream}
    (hp : ∀ (b : List UInt8) (off len : Nat) (σ σ' : Store) (c c' : Nat) (n : NalUnit) (o k : Nat), σ.Valid → b.length < 2 ^ 61 →
      off + len ≤ b.length → parseNalUnit nd opts b off len σ c = .val (some n, σ', c') → P { n with offset := o, length := k })
    (hσ : σ.Valid) (hl : data.length < 2 ^ 61)
    (he : parseBitstreamNALULength nd opts data k σ c = .val (bs, σ', c')) : ∀ n ∈ bs.nal_units, P n := by
  unfold parseBitstreamNALULength at he
  cases hu : parseLengthLoop nd opts data k data.length 0 σ c with
  | bad e => rw [hu, Res.bad_bind] at he; cases he
  | val r =>
    obtain ⟨ns, τ, c1⟩ := r
    rw [hu, Res.val_bind] at he
    simp only [Res.pure_eq, Res.val.injEq, Prod.mk.injEq] at he
    rw [← he.1]
    exact lengthLoop_all hp hl _ _ _ _ _ _ _ (fun _ => Or.inl rfl) hσ hu

theorem bitstream_shows {nd : Bool} {opts : ParsingOptions} {data : List UInt8} {σ σ' : Store} {c c' : Nat} {bs : Bitstream}
    (hσ : σ.Valid) (hl : data.length < 2 ^ 61) (h : parseBitstream nd opts data σ c = .val (bs, σ', c')) :
    ∀ n ∈ bs.nal_units, n.Shows opts :=
  bitstream_all (fun _ _ _ _ _ _ _ _ o k hσ hl h he => parseNalUnit_shows hσ hl h he o k) hσ hl h

theorem bitstreamNALULength_shows {nd : Bool} {opts : ParsingOptions} {σ σ' : Store} {data : List UInt8} {k c c' : Nat}
    {bs : Bitstream} (hσ : σ.Valid) (hl : data.length < 2 ^ 61)
    (he : parseBitstreamNALULength nd opts data k σ c = .val (bs, σ', c')) : ∀ n ∈ bs.nal_units, n.Shows opts :=
  bitstreamNALULength_all (fun _ _ _ _ _ _ _ _ o k hσ hl h he => parseNalUnit_shows hσ hl h he o k) hσ hl he

theorem parseNalUnit_no_checksum {nd : Bool} {opts : ParsingOptions} (ho : opts.add_checksum = false) {data : List UInt8}
    {off len : Nat} {σ σ' : Store} {c c' : Nat} {n : NalUnit} (hl : data.length < 2 ^ 61) (h : off + len ≤ data.length)
    (he : parseNalUnit nd opts data off len σ c = .val (some n, σ', c')) : n.checksum = none := by
  rcases nalUnitL_cases (Props.parseNalUnit_val h hl he) with ⟨h, _⟩ | ⟨hd, s, p, s', he, h1, h2, _⟩
  · cases h
  · cases he
    dsimp only
    unfold ckOf
    rw [if_neg (by simp [ho])]

/-! ### RTP -/

/-- The packet can be dumped. -/
def RtpSingle.Shows (x : RtpSingle) : Prop := ∀ (l : Int) (opts : ParsingOptions), Lev l → BlkD l (x.fdump l opts)
def RtpStapA.Shows (x : RtpStapA) : Prop := ∀ (l : Int) (opts : ParsingOptions), Lev l → BlkD l (x.fdump l opts)
def RtpFuA.Shows (x : RtpFuA) : Prop := ∀ (l : Int) (opts : ParsingOptions), Lev l → BlkD l (x.fdump l opts)
def Rtp.Shows (x : Rtp) : Prop := ∀ (l : Int) (opts : ParsingOptions), Lev l → BlkD l (x.fdump l opts)

theorem rtpSingle_shows {nd : Bool} {σ σ' : Store} (hσ : σ.Valid) {s s' : LSt} {x : RtpSingle}
    (h : runL nd (parseRtpSingle σ) s = .ok (x, σ') s') : x.Shows := by
  unfold parseRtpSingle at h
  simp only [runL_bind_ok] at h
  obtain ⟨hd, s1, h1, ⟨p, τ⟩, s2, h2, h3⟩ := h
  simp only [Prog.pure_eq, runL_ret, Out.ok.injEq, Prod.mk.injEq] at h3
  obtain ⟨⟨rfl, _⟩, _⟩ := h3
  intro l opts hl
  unfold RtpSingle.fdump
  dumpBlock hl
  · exact linesD_item ‹Lev _› (NalHeader.fdump_blk _ ‹Lev _›).zero
  · exact linesD_item ‹Lev _› (payload_shows hσ (header_svc h1) h2 _ _ _ ‹Lev _›).zero

theorem rtpFuA_shows {nd : Bool} {σ σ' : Store} (hσ : σ.Valid) {ref : Nat} {s s' : LSt} {x : RtpFuA}
    (h : runL nd (parseRtpFuA σ ref) s = .ok (x, σ') s') : x.Shows := by
  unfold parseRtpFuA at h
  simp only [runL_bind_ok] at h
  obtain ⟨hd, s1, _, sb, s2, hsb, eb, s3, _, rb, s4, _, ty, s5, _, h⟩ := h
  intro l opts hl
  unfold RtpFuA.fdump
  split at h
  · simp only [Prog.pure_eq, runL_ret, Out.ok.injEq, Prod.mk.injEq] at h
    obtain ⟨⟨rfl, _⟩, _⟩ := h
    subst_vars
    dumpBlock hl
    · exact linesD_item ‹Lev _› (NalHeader.fdump_blk _ ‹Lev _›).zero
  · simp only [runL_bind_ok] at h
    obtain ⟨⟨p, τ⟩, s6, h6, h⟩ := h
    simp only [Prog.pure_eq, runL_ret, Out.ok.injEq, Prod.mk.injEq] at h
    obtain ⟨⟨rfl, _⟩, _⟩ := h
    dumpBlock hl
    · exact linesD_item ‹Lev _› (NalHeader.fdump_blk _ ‹Lev _›).zero
    · refine linesD_deref ‹Lev _› ⟨p, rfl, ?_⟩
      unfold parsePayloadRT at h6
      exact payload_shows hσ (by simp) h6 _ _ _ ‹Lev _›

theorem stapAUnit_shows {nd : Bool} {σ σ' : Store} (hσ : σ.Valid) {s s' : LSt} {x : Nat × NalHeader × Payload}
    (h : runL nd (parseStapAUnit σ) s = .ok (x, σ') s') (type : Nat) : x.2.2.Shows type := by
  unfold parseStapAUnit at h
  simp only [runL_bind_ok] at h
  obtain ⟨n, s1, _, r, s2, _, _, s3, _, hd, s4, h4, ⟨p, τ⟩, s5, h5, h⟩ := h
  simp only [Prog.pure_eq, runL_ret, Out.ok.injEq, Prod.mk.injEq] at h
  obtain ⟨⟨rfl, _⟩, _⟩ := h
  exact payload_shows hσ (header_svc h4) h5 type

/-- A property of what a parser returns, seen through the reader. -/
theorem runStore_prop {α : Type} {nd : Bool} {σ σ' : Store} {p : Prog (α × Store)} {s s' : St} {x : α} {P : α → Prop}
    (hb : s.buf.WF) (hp : ∀ l a τ l', runL nd p l = .ok (a, τ) l' → P a)
    (h : runStore nd σ p s = .val (some x, σ', s')) : P x := by
  obtain ⟨b, c⟩ := s
  unfold runStore at h
  rw [run_eq nd p hb c] at h
  generalize hr : runL nd p ⟨b.rem, c⟩ = r at h
  cases r with
  | bad e => simp [Out.mapSt] at h
  | null s => simp [Out.mapSt] at h
  | ok a s =>
    obtain ⟨a, τ⟩ := a
    simp only [Out.mapSt, Res.val.injEq, Prod.mk.injEq, Option.some.injEq] at h
    rw [← h.1]
    exact hp _ _ _ _ hr

theorem stapALoop_shows (nd : Bool) : ∀ (f : Nat) (σ : Store) (s : St) (xs : List (Nat × NalHeader × Payload)) (σ' : Store) (s' : St),
    σ.Valid → s.buf.WF → stapALoop nd f σ s = .val (some xs, σ', s') → ∀ x ∈ xs, ∀ type, x.2.2.Shows type := by
  intro f
  induction f with
  | zero => intro σ s xs σ' s' _ _ h; simp [stapALoop] at h
  | succ f ih =>
    intro σ s xs σ' s' hσ hb h
    unfold stapALoop at h
    split at h
    · cases hr : runStore nd σ (parseStapAUnit σ) s with
      | bad e => rw [hr, Res.bad_bind] at h; cases h
      | val r =>
        obtain ⟨x, σ1, s1⟩ := r
        rw [hr, Res.val_bind] at h
        have hv := runStore_valid hb hσ (fun l a τ l' => stapAUnit_valid hσ) hr
        cases x with
        | none => simp at h
        | some x =>
          dsimp only at h
          cases hl : stapALoop nd f σ1 s1 with
          | bad e => rw [hl, Res.bad_bind] at h; cases h
          | val r =>
            obtain ⟨ys, σ2, s2⟩ := r
            rw [hl, Res.val_bind] at h
            cases ys with
            | none => simp at h
            | some ys =>
              simp only [Res.pure_eq, Res.val.injEq, Prod.mk.injEq, Option.some.injEq] at h
              rw [← h.1]
              intro y hy type
              rcases List.mem_cons.mp hy with rfl | hy
              · exact runStore_prop (P := fun x => x.2.2.Shows type) hb (fun l a τ l' h => stapAUnit_shows hσ h type) hr
              · exact ih _ _ _ _ _ hv.1 hv.2.1 hl y hy type
    · simp only [Res.pure_eq, Res.val.injEq, Prod.mk.injEq, Option.some.injEq] at h
      rw [← h.1]; simp

theorem stapA_fdump {x : RtpStapA} (h : ∀ y ∈ x.nal_units, ∀ type, y.2.2.Shows type) : x.Shows := by
  intro l opts hl
  unfold RtpStapA.fdump
  refine blkD_block hl (by decide +kernel) ?_
  have hl' := Lev.incr hl
  generalize indentIncr l = l' at hl' ⊢
  refine linesD_cons (linesD_item hl' (NalHeader.fdump_blk _ hl').zero) (linesD_cons ?_ (linesD_nil hl'))
  revert h
  generalize x.nal_units = us
  intro h
  induction us with
  | nil => exact linesD_nil hl'
  | cons u us ih =>
    rw [List.map_cons]
    refine linesD_cons ?_ (ih fun y hy => h y (by simp [hy]))
    dump
    · exact linesD_item hl' (NalHeader.fdump_blk _ hl').zero
    · exact linesD_item hl' (h u (by simp) _ _ _ hl').zero

theorem parseRtpStapA_shows {nd : Bool} {σ σ' : Store} {s s' : St} {x : RtpStapA} (hσ : σ.Valid) (hb : s.buf.WF)
    (h : parseRtpStapA nd σ s = .val (some x, σ', s')) : x.Shows := by
  obtain ⟨hd, s1, h0, hw⟩ := safe_good nd safe_nalHeader hb
  unfold parseRtpStapA at h
  rw [h0, Res.val_bind] at h
  cases hd with
  | none => simp at h
  | some hd =>
    dsimp only at h
    cases hl : stapALoop nd (s1.buf.remaining + 1) σ s1 with
    | bad e => rw [hl, Res.bad_bind] at h; cases h
    | val r =>
      obtain ⟨ys, σ2, s2⟩ := r
      rw [hl, Res.val_bind] at h
      cases ys with
      | none => simp at h
      | some ys =>
        simp only [Res.pure_eq, Res.val.injEq, Prod.mk.injEq, Option.some.injEq] at h
        rw [← h.1]
        exact stapA_fdump (stapALoop_shows nd _ _ _ _ _ _ hσ hw hl)

/-- The header and what follows it on the same line. -/
theorem rtp_frame {x : Rtp} {l : Int} {opts : ParsingOptions} (hl : Lev l)
    (h : ∀ l, Lev l → BlkD0 l (
      if x.nal_unit_header.nal_unit_type ≤ 23 then deref x.rtp_single (·.fdump l opts)
      else if x.nal_unit_header.nal_unit_type = 24 then deref x.rtp_stapa (·.fdump l opts)
      else if x.nal_unit_header.nal_unit_type = 28 then deref x.rtp_fua (·.fdump l opts)
      else .val [])) : BlkD l (x.fdump l opts) := by
  unfold Rtp.fdump
  refine blkD_block hl (by decide +kernel) ?_
  have hl' := Lev.incr hl
  generalize indentIncr l = l' at hl' ⊢
  exact linesD_glue hl' (NalHeader.fdump_blk _ hl') (h l' hl')

theorem parseRtp_shows {nd : Bool} {σ σ' : Store} {s s' : St} {x : Rtp} (hσ : σ.Valid) (hb : s.buf.WF)
    (h : parseRtp nd σ s = .val (some x, σ', s')) : x.Shows := by
  obtain ⟨hd, s1, h0, hw⟩ := safe_good nd safe_nalHeader hb
  unfold parseRtp at h
  rw [h0, Res.val_bind] at h
  cases hd with
  | none => simp at h
  | some hd =>
    have hw1 := seek0_wf hw
    dsimp only at h
    generalize s1.buf.seek 0 0 = z at h hw1
    intro l opts hl
    refine rtp_frame hl ?_
    intro l' hl'
    split at h
    · rename_i ht
      cases hr : runStore nd σ (parseRtpSingle σ) { buf := z.2, cnt := s1.cnt } with
      | bad e => rw [hr, Res.bad_bind] at h; cases h
      | val r =>
        obtain ⟨y, σ1, s2⟩ := r
        rw [hr, Res.val_bind] at h
        cases y with
        | none => simp at h
        | some y =>
          simp only [Res.pure_eq, Res.val.injEq, Prod.mk.injEq, Option.map_some, Option.some.injEq] at h
          rw [← h.1]
          dsimp only
          rw [if_pos ht]
          have : y.Shows := runStore_prop (P := fun x => x.Shows) (by exact hw1) (fun l a τ l' h => rtpSingle_shows hσ h) hr
          exact (this l' opts hl').zero
    split at h
    · rename_i ht1 ht
      cases hr : parseRtpStapA nd σ { buf := z.2, cnt := s1.cnt } with
      | bad e => rw [hr, Res.bad_bind] at h; cases h
      | val r =>
        obtain ⟨y, σ1, s2⟩ := r
        rw [hr, Res.val_bind] at h
        cases y with
        | none => simp at h
        | some y =>
          simp only [Res.pure_eq, Res.val.injEq, Prod.mk.injEq, Option.map_some, Option.some.injEq] at h
          rw [← h.1]
          dsimp only
          rw [if_neg ht1, if_pos ht]
          have : y.Shows := parseRtpStapA_shows hσ (by exact hw1) hr
          exact (this l' opts hl').zero
    split at h
    · rename_i ht1 ht2 ht
      cases hr : runStore nd σ (parseRtpFuA σ hd.nal_ref_idc) { buf := z.2, cnt := s1.cnt } with
      | bad e => rw [hr, Res.bad_bind] at h; cases h
      | val r =>
        obtain ⟨y, σ1, s2⟩ := r
        rw [hr, Res.val_bind] at h
        cases y with
        | none => simp at h
        | some y =>
          simp only [Res.pure_eq, Res.val.injEq, Prod.mk.injEq, Option.map_some, Option.some.injEq] at h
          rw [← h.1]
          dsimp only
          rw [if_neg ht1, if_neg ht2, if_pos ht]
          have : y.Shows := runStore_prop (P := fun x => x.Shows) (by exact hw1) (fun l a τ l' h => rtpFuA_shows hσ h) hr
          exact (this l' opts hl').zero
    · rename_i ht1 ht2 ht3
      simp only [Res.pure_eq, Res.val.injEq, Prod.mk.injEq, Option.some.injEq] at h
      rw [← h.1]
      dsimp only
      rw [if_neg ht1, if_neg ht2, if_neg ht3]
      exact ⟨[], rfl, .inl rfl⟩

/-- A call on `(data, length)`. -/
theorem onData_prop {α : Type} {nd : Bool} {f : St → Res (Option α × Store × St)} {data : List UInt8} {off len : Nat}
    (h : off + len ≤ data.length) (hl : data.length < 2 ^ 61) {P : α → Prop}
    (hf : ∀ s x σ' s', s.buf.WF → f s = .val (some x, σ', s') → P x) {c c' : Nat} {x : α} {σ' : Store}
    (he : onData nd f data off len c = .val (some x, σ', c')) : P x := by
  have hm := Props.lt_maxVector
  unfold onData at he
  rw [unescapeRbsp_eq h (by omega), Res.val_bind] at he
  have hs := strip_length ((data.drop off).take len)
  have hs2 : ((data.drop off).take len).length ≤ data.length := by rw [List.length_take, List.length_drop]; omega
  by_cases hfit : Fits nd (strip ((data.drop off).take len)).length
  · rw [Buf.new_eq hfit, Res.val_bind] at he
    cases hr : f ⟨Buf.start (strip ((data.drop off).take len)), c⟩ with
    | bad e => rw [hr, Res.bad_bind] at he; cases he
    | val r =>
      obtain ⟨y, τ, s'⟩ := r
      rw [hr, Res.val_bind] at he
      simp only [Res.pure_eq, Res.val.injEq, Prod.mk.injEq] at he
      rw [he.1] at hr
      exact hf _ _ _ _ (Buf.start_wf hfit.lt) hr
  · rw [Props.Buf.new_bad (by omega) hfit, Res.bad_bind] at he
    cases he

end H264
