import Verif.NalLemmas
import Verif.Props.Headers
import Verif.Props.Subset
import Verif.Props.Pps
import Verif.Props.Malformed
import Verif.Props.Reach
import Verif.Spec.Modes

/-
Lemmas for C45: what a build with assertions and an NDEBUG build have in common.
-/

namespace H264
open Prog Props H264.Spec

/-! ### Programs that do not touch the counter of unimplemented syntax -/

namespace Props.KeepsCnt
variable {α β : Type}

theorem ret (a : α) : KeepsCnt (Prog.ret a) := by intro nd s; simp
theorem null : KeepsCnt (Prog.null : Prog α) := by intro nd s; simp
theorem ue : KeepsCnt Prog.ue := by
  intro nd s; rw [runL_ue]; cases ueDec s.rem <;> simp
theorem se : KeepsCnt Prog.se := by
  intro nd s; rw [runL_se]; cases ueDec s.rem <;> simp
theorem remaining : KeepsCnt Prog.remaining := by intro nd s; rw [runL_remaining]
theorem lift (r : Res α) : KeepsCnt (Prog.lift r) := by
  intro nd s; cases r <;> simp [Prog.lift]
theorem guard (c : Prop) [Decidable c] : KeepsCnt (Prog.guard c) := by
  intro nd s; rw [runL_guard]
  by_cases h : c
  · rw [if_pos h]
  · rw [if_neg h]
theorem ite {c : Prop} [Decidable c] {p q : Prog α} (hp : c → KeepsCnt p) (hq : ¬ c → KeepsCnt q) :
    KeepsCnt (if c then p else q) := by
  by_cases h : c
  · rw [if_pos h]; exact hp h
  · rw [if_neg h]; exact hq h
theorem opt {c : Prop} [Decidable c] {d : α} {p : Prog α} (hp : c → KeepsCnt p) : KeepsCnt (Prog.opt c d p) :=
  ite hp (fun _ => pure _)
theorem ueIn {lo hi : Nat} : KeepsCnt (Prog.ueIn lo hi) := bind ue (fun _ => bind (guard _) (fun _ => pure _))
theorem rep {p : Prog α} (hp : KeepsCnt p) (n : Nat) : KeepsCnt (p.rep n) := by
  induction n with
  | zero => exact pure _
  | succ n ih => exact bind hp (fun _ => bind ih (fun _ => pure _))
theorem attempt {p : Prog α} (hp : KeepsCnt p) : KeepsCnt p.attempt := by
  intro nd s
  rw [runL_attempt]
  have := hp nd s
  revert this
  cases runL nd p s <;> simp

end Props.KeepsCnt

/-- One step of `keepscnt`. -/
syntax "keeps_step" : tactic
macro_rules | `(tactic| keeps_step) => `(tactic| with_reducible refine KeepsCnt.bind ?_ (fun _ => ?_))
macro_rules | `(tactic| keeps_step) => `(tactic| with_reducible refine KeepsCnt.ite (fun _ => ?_) (fun _ => ?_))
macro_rules | `(tactic| keeps_step) => `(tactic| with_reducible refine KeepsCnt.opt (fun _ => ?_))
macro_rules | `(tactic| keeps_step) => `(tactic| with_reducible refine KeepsCnt.rep ?_ _)
macro_rules | `(tactic| keeps_step) => `(tactic| with_reducible refine KeepsCnt.attempt ?_)
macro_rules | `(tactic| keeps_step) => `(tactic| with_reducible exact KeepsCnt.pure _)
macro_rules | `(tactic| keeps_step) => `(tactic| with_reducible exact KeepsCnt.ret _)
macro_rules | `(tactic| keeps_step) => `(tactic| with_reducible exact KeepsCnt.null)
macro_rules | `(tactic| keeps_step) => `(tactic| with_reducible exact KeepsCnt.u _)
macro_rules | `(tactic| keeps_step) => `(tactic| with_reducible exact KeepsCnt.ue)
macro_rules | `(tactic| keeps_step) => `(tactic| with_reducible exact KeepsCnt.se)
macro_rules | `(tactic| keeps_step) => `(tactic| with_reducible exact KeepsCnt.ueIn)
macro_rules | `(tactic| keeps_step) => `(tactic| with_reducible exact KeepsCnt.lift _)
macro_rules | `(tactic| keeps_step) => `(tactic| with_reducible exact KeepsCnt.guard _)
macro_rules | `(tactic| keeps_step) => `(tactic| with_reducible exact KeepsCnt.remaining)
macro_rules | `(tactic| keeps_step) => `(tactic| with_reducible assumption)
/-- Prove `KeepsCnt p` by structure. -/
macro "keepscnt" : tactic => `(tactic| repeat' keeps_step)

theorem keeps_trailingLoop (n : Nat) : KeepsCnt (trailingLoop n) := by
  induction n with
  | zero => intro nd s; simp [trailingLoop]
  | succ n ih =>
    refine KeepsCnt.bind (fun nd s => by rw [runL_aligned]) (fun al => ?_)
    split
    · exact KeepsCnt.pure _
    · exact KeepsCnt.bind (KeepsCnt.u _) (fun b => KeepsCnt.bind (KeepsCnt.guard _) (fun _ => ih))
theorem keeps_trailing : KeepsCnt rbspTrailingBits :=
  KeepsCnt.bind (KeepsCnt.u _) (fun _ => KeepsCnt.bind (KeepsCnt.guard _) (fun _ =>
    KeepsCnt.bind KeepsCnt.remaining (fun _ => keeps_trailingLoop _)))
theorem keeps_more : KeepsCnt moreRbspData := by intro nd s; rw [runL_more]
macro_rules | `(tactic| keeps_step) => `(tactic| with_reducible exact keeps_trailing)
macro_rules | `(tactic| keeps_step) => `(tactic| with_reducible exact keeps_more)

theorem keeps_scalingLoop (i : Nat) : ∀ (n j last next : Nat) (s : SLSt), KeepsCnt (scalingLoop i n j last next s)
  | 0, _, _, _, _ => KeepsCnt.pure _
  | n + 1, j, last, next, s => by
    unfold scalingLoop
    refine KeepsCnt.ite (fun _ => ?_) (fun _ => keeps_scalingLoop i n _ _ _ _)
    refine KeepsCnt.bind (KeepsCnt.attempt KeepsCnt.se) (fun d => ?_)
    cases d with
    | none => exact KeepsCnt.pure _
    | some d =>
      refine KeepsCnt.ite (fun _ => KeepsCnt.pure _) (fun _ => ?_)
      exact KeepsCnt.bind (KeepsCnt.lift _) (fun _ => KeepsCnt.bind (KeepsCnt.lift _) (fun _ =>
        keeps_scalingLoop i n _ _ _ _))
theorem keeps_scalingCall (i : Nat) (s : Scal) : KeepsCnt (scalingCall i s) := by
  unfold scalingCall scalingList
  have := keeps_scalingLoop
  exact KeepsCnt.ite (fun _ => KeepsCnt.bind (this _ _ _ _ _ _) (fun _ => KeepsCnt.pure _))
    (fun _ => KeepsCnt.bind (this _ _ _ _ _ _) (fun _ => KeepsCnt.pure _))
theorem keeps_scalingLists : ∀ (n i : Nat) (s : Scal), KeepsCnt (scalingLists n i s)
  | 0, _, _ => KeepsCnt.pure _
  | n + 1, i, s => by
    unfold scalingLists
    exact KeepsCnt.bind (KeepsCnt.u _) (fun f => KeepsCnt.bind (KeepsCnt.opt (fun _ => keeps_scalingCall _ _))
      (fun _ => keeps_scalingLists n _ _))

theorem keeps_vui : KeepsCnt parseVui := by
  unfold parseVui parseAspectRatio parseSar parseVideoSignal parseColour parseChromaLoc parseTiming parseOptHrd
    parseRestriction parseHrd parseHrdEntry
  keepscnt
theorem keeps_spsData : KeepsCnt parseSpsData := by
  unfold parseSpsData parseSpsHead parseChromaInfo
  have h1 := keeps_scalingLists
  have h2 : ∀ h, KeepsCnt (parseSpsTail h) := by
    intro h
    unfold parseSpsTail parsePoc parseCrop parseOptVui
    have := keeps_vui
    keepscnt
  refine KeepsCnt.bind (by keepscnt) (fun h => KeepsCnt.bind (KeepsCnt.opt fun _ => h1 _ _ _) (fun _ =>
    KeepsCnt.bind (h2 h) (fun _ => KeepsCnt.pure _)))
theorem keeps_pps (cf : Nat) : KeepsCnt (parsePps cf) := by
  unfold parsePps parsePpsHead parsePpsExt parseSliceGroups parseTopLeftBottomRight
  have h1 := keeps_scalingLists
  repeat' first | keeps_step | exact h1 _ _ _

/-! ### Programs that agree on one state -/

/-- Same verdict, value and count; the position may differ. -/
def Out.sim {α : Type} : Out LSt α → Out LSt α → Prop
  | .ok a s, .ok b t => a = b ∧ s.cnt = t.cnt
  | .null s, .null t => s.cnt = t.cnt
  | .bad e, .bad f => e = f
  | _, _ => False

theorem Out.same.sim {α : Type} {x y : Out LSt α} (h : x.same y) : x.sim y := by
  cases x <;> cases y <;> simp_all [Out.same, Out.sim]

/-- The two build modes agree on this state, position included. -/
def SameAt {α : Type} (p : Prog α) (s : LSt) : Prop := (runL true p s).same (runL false p s)
/-- The two build modes agree on this state up to the position. -/
def SimAt {α : Type} (p : Prog α) (s : LSt) : Prop := (runL true p s).sim (runL false p s)

theorem SameAt.sim {α : Type} {p : Prog α} {s : LSt} (h : SameAt p s) : SimAt p s := Out.same.sim h
theorem ModeIndep.at {α : Type} {p : Prog α} (h : ModeIndep p) (s : LSt) : SimAt p s := Out.same.sim (h s)

theorem SameAt.bind {α β : Type} {p : Prog α} {f : α → Prog β} {s : LSt} (hp : SameAt p s) (hf : ∀ a, ModeIndep (f a)) :
    SameAt (p >>= f) s := by
  unfold SameAt at *
  rw [runL_bind, runL_bind]
  revert hp
  cases runL true p s <;> cases runL false p s <;> simp [Out.same, Out.bind]
  rintro rfl rfl
  exact hf _ _

theorem SimAt.attempt {α : Type} {p : Prog α} {s : LSt} (h : SimAt p s) : SimAt p.attempt s := by
  unfold SimAt at *
  rw [runL_attempt, runL_attempt]
  revert h
  cases runL true p s <;> cases runL false p s <;> simp [Out.sim]

theorem SimAt.map {α β : Type} {p : Prog α} {g : α → β} {s : LSt} (h : SimAt p s) :
    SimAt (p >>= fun a => Pure.pure (g a)) s := by
  unfold SimAt at *
  rw [runL_bind, runL_bind]
  revert h
  cases runL true p s <;> cases runL false p s <;> simp [Out.sim, Out.bind]
  rintro rfl h
  exact ⟨rfl, h⟩

theorem SimAt.ite {α : Type} {c : Prop} [Decidable c] {p q : Prog α} {s : LSt} (hp : c → SimAt p s)
    (hq : ¬ c → SimAt q s) : SimAt (if c then p else q) s := by
  by_cases h : c
  · rw [if_pos h]; exact hp h
  · rw [if_neg h]; exact hq h

/-! ### Scaling lists in which every delta_scale can be read -/

theorem afterUnreadable_nil (nd : Bool) : afterUnreadable nd [] = [] := by cases nd <;> rfl

theorem listRead_modes {nd : Bool} {n last next : Nat} {l r : List Bool} {out : List Nat} {ds : List Int} {ok : Bool}
    (h : ListRead nd n last next l r out ds ok) (hu : ¬ UnreadableList n last next l) (nd' : Bool) :
    ListRead nd' n last next l r out ds ok := by
  induction h with
  | done => exact .done _ _ _
  | read h1 h2 h3 h4 h5 _ ih =>
    refine .read h1 h2 h3 h4 h5 (ih fun h => hu ?_)
    exact .later h1 h2 h3 h4 rfl (h5 ▸ h)
  | keep _ ih => exact .keep (ih fun h => by cases h <;> contradiction)
  | outOfRange h1 h2 h3 => exact .outOfRange h1 h2 h3
  | @unreadable n last next l h1 h2 =>
    cases l with
    | nil =>
      rw [afterUnreadable_nil]
      have := ListRead.unreadable (nd := nd') (n := n) (last := last) h1 h2
      rwa [afterUnreadable_nil] at this
    | cons a l => exact absurd (.here h1 (by simp) h2) hu

theorem listsRead_modes {nd : Bool} {n i : Nat} {s s' : Scal} {l r : List Bool} (h : ListsRead nd n i s l r s')
    (hu : ¬ UnreadableLists n i l) (nd' : Bool) : ListsRead nd' n i s l r s' := by
  induction h with
  | done => exact .done _ _ _
  | absent _ ih => exact .absent (ih fun h => hu (.absent rfl h))
  | present h1 _ ih =>
    have hl := fun nd' => listRead_modes h1 (fun h => hu (.here rfl h)) nd'
    exact .present (hl nd') (ih fun h => hu (.present rfl (hl false) h))

theorem spsRead_modes {nd : Bool} {st : SpsData} {l r : List Bool} (h : SpsRead nd st l r) (hu : ¬ UnreadableSps l)
    (nd' : Bool) : SpsRead nd' st l r := by
  obtain ⟨h1, h2, l1, l2, e1, h3, e2⟩ := h
  exact ⟨h1, h2, l1, l2, e1, listsRead_modes h3 (fun h => hu ⟨_, _, h1, e1, h⟩) nd', e2⟩

theorem ppsRead_modes {nd : Bool} {cf : Nat} {st : Pps} {l : List Bool} (h : PpsRead nd cf st l) (hu : ¬ UnreadablePps cf l)
    (nd' : Bool) : PpsRead nd' cf st l := by
  obtain ⟨h1, h2, l1, e1, h3⟩ := h
  refine ⟨h1, h2, l1, e1, h3.imp id ?_⟩
  rintro ⟨h4, h5, h6, h7, l2, l3, r, e2, h8, e3⟩
  refine ⟨h4, h5, h6, h7, l2, l3, r, e2, listsRead_modes h8 (fun h => hu ?_) nd', e3⟩
  exact ⟨_, _, _, _, h1, h5, h6, by rw [e1, e2]; simp only [List.append_assoc], h⟩

theorem sameAt_spsData {l : List Bool} {c : Nat} (hm : ¬ UnreadableSps l) : SameAt parseSpsData ⟨l, c⟩ := by
  unfold SameAt
  have k1 := keeps_spsData true ⟨l, c⟩
  have k2 := keeps_spsData false ⟨l, c⟩
  have s1 := safe_spsData true ⟨l, c⟩
  have s2 := safe_spsData false ⟨l, c⟩
  generalize h1 : runL true parseSpsData ⟨l, c⟩ = x at *
  generalize h2 : runL false parseSpsData ⟨l, c⟩ = y at *
  cases x with
  | bad e => exact absurd rfl (s1 e)
  | ok a s =>
    obtain ⟨r, h, rfl⟩ := (spsData_iff true l c a s).mp h1
    rw [(spsData_iff false l c a _).mpr ⟨r, spsRead_modes h hm false, rfl⟩] at h2
    rw [← h2]
    exact ⟨rfl, rfl⟩
  | null s =>
    cases y with
    | bad e => exact absurd rfl (s2 e)
    | null t => exact k1.trans k2.symm
    | ok a s =>
      obtain ⟨r, h, rfl⟩ := (spsData_iff false l c a s).mp h2
      rw [(spsData_iff true l c a _).mpr ⟨r, spsRead_modes h hm true, rfl⟩] at h1
      cases h1

theorem simAt_of {α : Type} {p : Prog α} {s : LSt} (hk : KeepsCnt p) (hs : Safe p)
    (h : ∀ nd a t, runL nd p s = .ok a t → ∀ nd', ∃ t', runL nd' p s = .ok a t') : SimAt p s := by
  unfold SimAt
  have k1 := hk true s
  have k2 := hk false s
  have s1 := hs true s
  have s2 := hs false s
  have e1 := h true
  have e2 := h false
  generalize h1 : runL true p s = x at *
  generalize h2 : runL false p s = y at *
  cases x with
  | bad e => exact absurd rfl (s1 e)
  | ok a t =>
    obtain ⟨t', e⟩ := e1 a t rfl false
    rw [h2] at e
    subst e
    exact ⟨rfl, k1.trans k2.symm⟩
  | null t =>
    cases y with
    | bad e => exact absurd rfl (s2 e)
    | null t => exact k1.trans k2.symm
    | ok a t =>
      obtain ⟨t', e⟩ := e2 a t rfl true
      rw [h1] at e
      cases e

theorem simAt_pps {cf : Nat} {l : List Bool} {c : Nat} (hm : ¬ UnreadablePps cf l) : SimAt (parsePps cf) ⟨l, c⟩ := by
  refine simAt_of (keeps_pps cf) (safe_pps cf) (fun nd a t h nd' => ?_)
  exact (Props.pps_iff nd' cf a l c).mpr (ppsRead_modes ((Props.pps_iff nd cf a l c).mp ⟨t, h⟩) hm nd')

theorem mode_ext2Step : ModeIndep parseExt2Step := by
  unfold parseExt2Step
  have := mode_more
  modeindep
theorem mode_subsetExt (p cat : Nat) : ModeIndep (parseSubsetExt p cat) := by
  unfold parseSubsetExt
  have := mode_spsSvcExt cat
  modeindep
theorem mode_ext2 : ModeIndep parseExt2 := by
  unfold parseExt2
  have := mode_ext2Step
  modeindep
theorem mode_prefixRbsp (a b c d : Nat) : ModeIndep (parsePrefixRbsp a b c d) := by
  unfold parsePrefixRbsp parsePrefixSvc parsePrefixExt parsePrefixExtData
  have := mode_ext2Step
  have := mode_more
  modeindep

theorem simAt_payload {σ : Store} {h : NalHeader} {l : List Bool} {c : Nat} (hm : ¬ UnreadablePayload h.nal_unit_type l) :
    SimAt (parsePayload σ h) ⟨l, c⟩ := by
  unfold UnreadablePayload at hm
  unfold parsePayload
  refine SimAt.ite (fun _ => ?_) (fun _ => SimAt.ite (fun h7 => ?_) (fun _ => SimAt.ite (fun h8 => ?_) (fun _ =>
    SimAt.ite (fun _ => ?_) (fun _ => SimAt.ite (fun h15 => ?_) (fun _ => SimAt.ite (fun _ => ?_) (fun _ => ?_))))))
  · refine SimAt.map (SimAt.attempt (ModeIndep.at ?_ _))
    exact ModeIndep.bind (mode_sliceHeader σ _ _) (fun _ => ModeIndep.pure _)
  · refine SimAt.map (SimAt.attempt (SameAt.sim ?_))
    have h1 : SameAt parseSpsData ⟨l, c⟩ := sameAt_spsData (fun h => hm (.inl ⟨h7, h⟩))
    exact SameAt.bind h1 (fun d => ModeIndep.bind mode_attempt_trailing (fun _ => ModeIndep.pure _))
  · exact SimAt.map (SimAt.attempt (simAt_pps (fun h => hm (.inr (.inl ⟨h8, h⟩)))))
  · refine SimAt.map ?_
    unfold parsePrefixPayload
    refine SimAt.ite (fun _ => ?_) (fun _ => (ModeIndep.pure _).at _)
    cases h.svc_extension with
    | none => exact (ModeIndep.pure _).at _
    | some e => exact SimAt.attempt ((mode_prefixRbsp _ _ _ _).at _)
  · refine SimAt.map (SimAt.attempt (SameAt.sim ?_))
    have h1 : SameAt parseSpsData ⟨l, c⟩ := sameAt_spsData (fun h => hm (.inr (.inr ⟨h15, h⟩)))
    refine SameAt.bind h1 (fun d => ?_)
    refine ModeIndep.bind (mode_subsetExt _ _) (fun _ => ModeIndep.bind mode_ext2 (fun _ =>
      ModeIndep.bind mode_attempt_trailing (fun _ => ModeIndep.pure _)))
  · refine SimAt.map (SimAt.attempt ?_)
    unfold parseSliceLayerExt
    refine SimAt.ite (fun _ => SimAt.map (SimAt.attempt ((mode_scalHeader σ h).at _))) (fun _ => ?_)
    exact SimAt.ite (fun _ => (ModeIndep.pure _).at _) (fun _ =>
      (ModeIndep.bind (mode_sliceHeader σ _ _) (fun _ => ModeIndep.pure _)).at _)
  · exact (ModeIndep.pure _).at _

end H264
