import Verif.Modes

/-
How often unimplemented syntax is counted: at most once in a NAL unit, and not at all when the payload is parsed.
-/

namespace H264
open Prog Props H264.Spec

/-- A parser that counts unimplemented syntax at most once, and only when it gives up. -/
def CountsOnce {α : Type} (p : Prog α) : Prop :=
  ∀ nd s, match runL nd p s with
    | .ok _ s' => s'.cnt = s.cnt
    | .null s' => s'.cnt = s.cnt ∨ s'.cnt = s.cnt + 1
    | .bad _ => True

namespace CountsOnce
variable {α β : Type}

theorem of {p : Prog α} (h : KeepsCnt p) : CountsOnce p := by
  intro nd s
  have := h nd s
  revert this
  cases runL nd p s <;> simp
  intro h; exact .inl h

theorem bind {p : Prog α} {f : α → Prog β} (hp : CountsOnce p) (hf : ∀ a, CountsOnce (f a)) : CountsOnce (p >>= f) := by
  intro nd s
  rw [runL_bind]
  have h := hp nd s
  revert h
  cases runL nd p s with
  | ok a s' =>
    intro h
    have h2 := hf a nd s'
    simp only [Out.bind]
    revert h2
    simp only at h
    cases runL nd (f a) s' <;> simp [h]
  | null s' => exact id
  | bad e => exact id

theorem ite {c : Prop} [Decidable c] {p q : Prog α} (hp : c → CountsOnce p) (hq : ¬ c → CountsOnce q) :
    CountsOnce (if c then p else q) := by
  by_cases h : c
  · rw [if_pos h]; exact hp h
  · rw [if_neg h]; exact hq h
theorem opt {c : Prop} [Decidable c] {d : α} {p : Prog α} (hp : c → CountsOnce p) : CountsOnce (Prog.opt c d p) :=
  ite hp (fun _ => of (KeepsCnt.pure _))
theorem unimplNull : CountsOnce (do unimpl; null : Prog α) := by
  intro nd s
  simp [runL_bind, Out.bind, runL_unimpl]

end CountsOnce

/-- One step of `countsonce`. -/
syntax "counts_step" : tactic
macro_rules | `(tactic| counts_step) => `(tactic| (with_reducible refine CountsOnce.of ?_; keepscnt; done))
macro_rules | `(tactic| counts_step) => `(tactic| with_reducible assumption)
macro_rules | `(tactic| counts_step) => `(tactic| with_reducible refine CountsOnce.bind ?_ (fun _ => ?_))
macro_rules | `(tactic| counts_step) => `(tactic| with_reducible refine CountsOnce.ite (fun _ => ?_) (fun _ => ?_))
macro_rules | `(tactic| counts_step) => `(tactic| with_reducible refine CountsOnce.opt (fun _ => ?_))
macro_rules | `(tactic| counts_step) => `(tactic| with_reducible exact CountsOnce.unimplNull)
/-- Prove `CountsOnce p` by structure. -/
macro "countsonce" : tactic => `(tactic| repeat' counts_step)

theorem KeepsCnt.loopN {α : Type} {p : Prog (Option α)} (h : KeepsCnt p) (n : Nat) : KeepsCnt (p.loopN n) := by
  induction n with
  | zero => intro nd s; simp [Prog.loopN]
  | succ n ih =>
    unfold Prog.loopN
    refine KeepsCnt.bind h (fun o => ?_)
    cases o with
    | none => exact KeepsCnt.pure _
    | some a => exact KeepsCnt.bind ih (fun _ => KeepsCnt.pure _)
theorem KeepsCnt.loop {α : Type} {p : Prog (Option α)} (h : KeepsCnt p) : KeepsCnt p.loop :=
  KeepsCnt.bind KeepsCnt.remaining (fun _ => KeepsCnt.loopN h _)

theorem counts_nalHeader : CountsOnce parseNalHeader := by
  unfold parseNalHeader parseExtFlags parseExtBody parseSvcHeaderExt
  countsonce

theorem keeps_sps : KeepsCnt parseSps := by
  unfold parseSps
  have := keeps_spsData
  keepscnt
theorem keeps_ext2Loop : KeepsCnt parseExt2Step.loop := by
  refine KeepsCnt.loop ?_
  unfold parseExt2Step
  keepscnt
theorem keeps_subset : KeepsCnt parseSubsetSps := by
  unfold parseSubsetSps parseExt2 parseSubsetExt parseSpsSvcExt parseRefChroma parseFourSe
  have := keeps_spsData
  have := keeps_ext2Loop
  keepscnt
theorem keeps_refPicListMod (t : Nat) : KeepsCnt (parseRefPicListMod t) := by
  have h : KeepsCnt parseModOp.loop := KeepsCnt.loop (by unfold parseModOp; keepscnt)
  unfold parseRefPicListMod parseModList
  keepscnt
theorem keeps_decRefPicMarking (i : Nat) : KeepsCnt (parseDecRefPicMarking i) := by
  have h : KeepsCnt parseMmco.loop := KeepsCnt.loop (by unfold parseMmco parseMmcoBody; keepscnt)
  unfold parseDecRefPicMarking
  keepscnt
theorem keeps_predWeightTable (a b c d : Nat) : KeepsCnt (parsePredWeightTable a b c d) := by
  unfold parsePredWeightTable parseWeight parseLumaWeight parseChromaWeight
  keepscnt
theorem keeps_sliceStart : KeepsCnt parseSliceStart := by unfold parseSliceStart; keepscnt
theorem keeps_fieldPic (a : Nat) : KeepsCnt (parseFieldPic a) := by unfold parseFieldPic; keepscnt
theorem keeps_poc0 (a b c d : Nat) : KeepsCnt (parsePoc0 a b c d) := by unfold parsePoc0; keepscnt
theorem keeps_poc1 (a b c d : Nat) : KeepsCnt (parsePoc1 a b c d) := by unfold parsePoc1; keepscnt
theorem keeps_numRef (a b c : Nat) : KeepsCnt (parseNumRef a b c) := by unfold parseNumRef; keepscnt
theorem keeps_deblocking (a b : Nat) : KeepsCnt (parseDeblocking a b) := by unfold parseDeblocking; keepscnt
theorem keeps_changeCycle (s : SpsData) (p : Pps) : KeepsCnt (parseChangeCycle s p) := by unfold parseChangeCycle; keepscnt
theorem keeps_qpDelta (a : Nat) : KeepsCnt (parseQpDelta a) := by unfold parseQpDelta; keepscnt
theorem keeps_switching (a : Nat) : KeepsCnt (parseSwitching a) := by unfold parseSwitching; keepscnt
macro_rules | `(tactic| keeps_step) => `(tactic| with_reducible exact keeps_refPicListMod _)
macro_rules | `(tactic| keeps_step) => `(tactic| with_reducible exact keeps_decRefPicMarking _)
macro_rules | `(tactic| keeps_step) => `(tactic| with_reducible exact keeps_predWeightTable _ _ _ _)
macro_rules | `(tactic| keeps_step) => `(tactic| with_reducible exact keeps_poc0 _ _ _ _)
macro_rules | `(tactic| keeps_step) => `(tactic| with_reducible exact keeps_poc1 _ _ _ _)
macro_rules | `(tactic| keeps_step) => `(tactic| with_reducible exact keeps_numRef _ _ _)
macro_rules | `(tactic| keeps_step) => `(tactic| with_reducible exact keeps_deblocking _ _)
macro_rules | `(tactic| keeps_step) => `(tactic| with_reducible exact keeps_changeCycle _ _)
macro_rules | `(tactic| keeps_step) => `(tactic| with_reducible exact keeps_fieldPic _)
macro_rules | `(tactic| keeps_step) => `(tactic| with_reducible exact keeps_qpDelta _)
macro_rules | `(tactic| keeps_step) => `(tactic| with_reducible exact keeps_switching _)
macro_rules | `(tactic| keeps_step) => `(tactic| with_reducible exact keeps_sliceStart)

theorem counts_sliceHeader (σ : Store) (a b : Nat) : CountsOnce (parseSliceHeader σ a b) := by
  unfold parseSliceHeader
  refine CountsOnce.bind (.of keeps_sliceStart) (fun x => ?_)
  cases σ.pps x.2.2 with
  | none => exact .of .null
  | some p =>
    dsimp only
    cases σ.sps p.seq_parameter_set_id with
    | none => exact .of .null
    | some s =>
      dsimp only
      unfold parseSliceBody parseSliceMod
      countsonce

theorem counts_scalHeader (σ : Store) (h : NalHeader) : CountsOnce (parseScalHeader σ h) := by
  unfold parseScalHeader
  refine CountsOnce.bind (.of keeps_sliceStart) (fun x => ?_)
  cases σ.pps x.2.2 with
  | none => exact .of .null
  | some p =>
    dsimp only
    cases σ.subset_sps p.seq_parameter_set_id with
    | none => exact .of .null
    | some s =>
      dsimp only
      cases s.seq_parameter_set_svc_extension with
      | none => exact .of .null
      | some e =>
        dsimp only
        refine CountsOnce.bind (by countsonce) (fun _ => CountsOnce.bind (by countsonce) (fun _ => CountsOnce.bind (by countsonce) (fun _ => ?_)))
        cases h.svc_extension with
        | none => exact .of .null
        | some n =>
          dsimp only
          unfold parseScalBody parseScalPic parseScalRef parseScalWeights parseStoreRef parseScalQp parseScalLayer parseLayerDeblocking
            parseScalPred parseModes parseAdaptive parseScan parseRefChroma parseFourSe
          countsonce

theorem counts_prefix (a b c d : Nat) : CountsOnce (parsePrefixRbsp a b c d) := by
  unfold parsePrefixRbsp parsePrefixSvc parsePrefixExt parsePrefixExtData
  have h : CountsOnce parseExt2Step.loop := .of keeps_ext2Loop
  have h2 : CountsOnce rbspTrailingBits.attempt := .of (.attempt keeps_trailing)
  have h3 : CountsOnce moreRbspData := .of keeps_more
  countsonce

/-- A scalable slice header without room for dec_ref_base_pic_marking() has nothing that is not implemented. -/
theorem keeps_scalHeader (σ : Store) (h : NalHeader)
    (hn : ∀ e, h.svc_extension = some e → ¬ (h.nal_ref_idc ≠ 0 ∧ e.idr_flag = 0 ∧ e.quality_id = 0)) :
    KeepsCnt (parseScalHeader σ h) := by
  unfold parseScalHeader
  refine KeepsCnt.bind keeps_sliceStart (fun x => ?_)
  cases σ.pps x.2.2 with
  | none => exact .null
  | some p =>
    dsimp only
    cases σ.subset_sps p.seq_parameter_set_id with
    | none => exact .null
    | some s =>
      dsimp only
      cases s.seq_parameter_set_svc_extension with
      | none => exact .null
      | some e =>
        dsimp only
        refine KeepsCnt.bind (by keepscnt) (fun _ => KeepsCnt.bind (by keepscnt) (fun _ => KeepsCnt.bind (by keepscnt) (fun _ => ?_)))
        cases hs : h.svc_extension with
        | none => exact .null
        | some n =>
          dsimp only
          have := hn n hs
          have hr : ∀ t c, n.quality_id = 0 → KeepsCnt (parseScalRef h.nal_ref_idc t c p e n) := by
            intro t c hq
            unfold parseScalRef parseScalWeights
            repeat' first
              | keeps_step
              | (unfold parseStoreRef
                 refine KeepsCnt.bind (KeepsCnt.u _) (fun _ => ?_)
                 rw [if_neg (by omega)]
                 exact KeepsCnt.pure _)
          unfold parseScalBody parseScalPic parseScalQp parseScalLayer parseLayerDeblocking
            parseScalPred parseModes parseAdaptive parseScan parseRefChroma parseFourSe
          repeat' first | keeps_step | exact hr _ _ ‹_›

/-! ### Payloads -/

theorem counts_sliceLayer (σ : Store) (a b : Nat) : CountsOnce (parseSliceLayer σ a b) := by
  unfold parseSliceLayer
  have := counts_sliceHeader σ a b
  countsonce

/-- The header of a slice in a NAL unit of type 1 or 5 has nothing that is not implemented. -/
theorem keeps_sliceHeader (σ : Store) (a : Nat) {b : Nat} (hb : b = 1 ∨ b = 5) : KeepsCnt (parseSliceHeader σ a b) := by
  unfold parseSliceHeader
  refine KeepsCnt.bind keeps_sliceStart (fun x => ?_)
  cases σ.pps x.2.2 with
  | none => exact .null
  | some p =>
    dsimp only
    cases σ.sps p.seq_parameter_set_id with
    | none => exact .null
    | some s =>
      dsimp only
      have hm : ∀ t, KeepsCnt (parseSliceMod b t) := by
        intro t
        unfold parseSliceMod
        rw [if_neg (by omega)]
        exact keeps_refPicListMod t
      unfold parseSliceBody
      repeat' first | keeps_step | exact hm _

theorem keeps_sliceLayer (σ : Store) (a : Nat) {b : Nat} (hb : b = 1 ∨ b = 5) : KeepsCnt (parseSliceLayer σ a b) := by
  unfold parseSliceLayer
  have := keeps_sliceHeader σ a hb
  keepscnt

/-- The payload that the library found has all of its parts: there is one if the type is one that the library parses, and a slice
of an enhancement layer has its header. -/
def Complete (t : Nat) (p : Payload) : Prop :=
  p.isPayloadParsed t = true ∧
  ∀ x, t = 20 → p.slice_layer_extension_rbsp = some x → x.slice_header.isSome ∨ x.slice_header_in_scalable_extension.isSome

/-- What the payload parser does to the counter. -/
theorem payload_counter (nd : Bool) (σ σ' : Store) (h : NalHeader) (s s' : LSt) (p : Payload)
    (hp : runL nd (parsePayload σ h) s = .ok (p, σ') s') :
    (s'.cnt = s.cnt ∨ s'.cnt = s.cnt + 1 ∧ (h.nal_unit_type = 14 ∨ h.nal_unit_type = 20) ∧ ¬ Complete h.nal_unit_type p) ∧
    (h.nal_unit_type = 20 → h.svc_extension_flag ≠ 0 → s'.cnt ≠ s.cnt →
      h.nal_ref_idc ≠ 0 ∧ ∃ e, h.svc_extension = some e ∧ e.idr_flag = 0 ∧ e.quality_id = 0) := by
  refine ⟨?_, fun ht hf hc => ?_⟩
  case refine_2 =>
    refine Classical.byContradiction fun hn => hc ?_
    have hk := keeps_scalHeader σ h (fun e he hh => hn ⟨hh.1, e, he, hh.2⟩) nd s
    rw [runL_payload, if_neg (by omega), if_neg (by omega), if_neg (by omega), if_neg (by omega), if_neg (by omega),
      if_pos ht] at hp
    unfold parseSliceLayerExt at hp
    dsimp only at hp
    rw [if_pos hf, runL_bind, runL_attempt] at hp
    revert hk hp
    cases runL nd (parseScalHeader σ h) s with
    | bad e => simp [Out.bind]
    | ok a s1 => simp [Out.bind]; intro _ _ h2 h1; subst h2; exact h1
    | null s1 => simp [Out.bind]; intro _ _ h2 h1; subst h2; exact h1
  rw [runL_payload] at hp
  revert hp
  split
  · rename_i ht
    have := keeps_sliceLayer σ h.nal_ref_idc ht nd s
    revert this
    cases runL nd (parseSliceLayer σ h.nal_ref_idc h.nal_unit_type) s <;> simp <;> intro h1 _ _ h2 <;> subst h2 <;> exact .inl h1
  split
  · have := keeps_sps nd s
    revert this
    cases runL nd parseSps s <;> simp <;> intro h1 _ _ h2 <;> subst h2 <;> exact .inl h1
  split
  · have := keeps_pps 1 nd s
    revert this
    cases runL nd (parsePps 1) s <;> simp <;> intro h1 _ _ h2 <;> subst h2 <;> exact .inl h1
  split
  · rename_i ht
    unfold parsePrefixPayload
    by_cases hf : h.svc_extension_flag ≠ 0
    · rw [if_pos hf]
      cases h.svc_extension with
      | none => simp; intro _ _ h1; subst h1; exact .inl rfl
      | some e =>
        simp only [runL_attempt]
        have := counts_prefix h.svc_extension_flag h.nal_ref_idc e.use_ref_base_pic_flag e.idr_flag nd s
        revert this
        cases runL nd (parsePrefixRbsp h.svc_extension_flag h.nal_ref_idc e.use_ref_base_pic_flag e.idr_flag) s with
        | bad e => simp
        | ok a s1 => simp; intro h1 _ _ h2; subst h2; exact .inl h1
        | null s1 =>
          simp only [Out.ok.injEq, Prod.mk.injEq]
          rintro (h1 | h1) ⟨⟨h3, _⟩, h2⟩ <;> subst h2
          · exact .inl h1
          · refine .inr ⟨h1, .inl ht, ?_⟩
            subst h3
            intro hc
            have := hc.1
            simp [Payload.isPayloadParsed, ht] at this
    · rw [if_neg hf]
      simp; intro _ _ h1; subst h1; exact .inl rfl
  split
  · have := keeps_subset nd s
    revert this
    cases runL nd parseSubsetSps s <;> simp <;> intro h1 _ _ h2 <;> subst h2 <;> exact .inl h1
  split
  · rename_i ht
    unfold parseSliceLayerExt
    dsimp only
    by_cases hf : h.svc_extension_flag ≠ 0
    · rw [if_pos hf, runL_bind, runL_attempt]
      have := counts_scalHeader σ h nd s
      revert this
      cases runL nd (parseScalHeader σ h) s with
      | bad e => simp [Out.bind]
      | ok a s1 => simp [Out.bind]; intro h1 _ _ h2; subst h2; exact .inl h1
      | null s1 =>
        simp only [Out.bind, pure_eq, runL_ret, Out.ok.injEq, Prod.mk.injEq]
        rintro (h1 | h1) ⟨⟨h3, _⟩, h2⟩ <;> subst h2
        · exact .inl h1
        · refine .inr ⟨h1, .inr ht, ?_⟩
          subst h3
          intro hc
          have := hc.2 _ ht rfl
          simp at this
    rw [if_neg hf]
    by_cases hg : h.avc_3d_extension_flag ≠ 0
    · rw [if_pos hg]
      simp; intro _ _ h1; subst h1; exact .inl rfl
    · rw [if_neg hg, runL_bind]
      have := counts_sliceHeader σ h.nal_ref_idc h.nal_unit_type nd s
      revert this
      cases runL nd (parseSliceHeader σ h.nal_ref_idc h.nal_unit_type) s with
      | bad e => simp [Out.bind]
      | ok a s1 => simp [Out.bind]; intro h1 _ _ h2; subst h2; exact .inl h1
      | null s1 =>
        simp only [Out.bind, Out.ok.injEq, Prod.mk.injEq]
        rintro (h1 | h1) ⟨⟨h3, _⟩, h2⟩ <;> subst h2
        · exact .inl h1
        · refine .inr ⟨h1, .inr ht, ?_⟩
          subst h3
          intro hc
          have := hc.1
          simp [Payload.isPayloadParsed, ht] at this
  simp; intro _ _ h1; subst h1; exact .inl rfl

end H264
