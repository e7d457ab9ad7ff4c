import Verif.Logic
import Verif.Model.Basic

/-
Automation: `safe` and `modeindep` prove that a parser cannot run into undefined behaviour, and that it gives the same
answer in both build modes, by following the structure of the program.  Parsers proved so register a rule.
-/

namespace H264
open Prog

theorem Safe.opt {α : Type} {c : Prop} [Decidable c] {d : α} {p : Prog α} (hp : c → Safe p) :
    Safe (Prog.opt c d p) := Safe.ite hp (fun _ => Safe.pure _)
theorem Safe.ueIn {lo hi : Nat} : Safe (Prog.ueIn lo hi) :=
  Safe.bind Safe.ue (fun _ => Safe.bind (Safe.guard _) (fun _ => Safe.pure _))
theorem ModeIndep.opt {α : Type} {c : Prop} [Decidable c] {d : α} {p : Prog α} (hp : c → ModeIndep p) :
    ModeIndep (Prog.opt c d p) := ModeIndep.ite hp (fun _ => ModeIndep.pure _)
theorem ModeIndep.ueIn {lo hi : Nat} : ModeIndep (Prog.ueIn lo hi) :=
  ModeIndep.bind ModeIndep.ue (fun _ => ModeIndep.bind (ModeIndep.guard _) (fun _ => ModeIndep.pure _))

/-- One step of `safe`. -/
syntax "safe_step" : tactic
macro_rules | `(tactic| safe_step) => `(tactic| with_reducible refine Safe.bind ?_ (fun _ => ?_))
macro_rules | `(tactic| safe_step) => `(tactic| with_reducible refine Safe.guardBind (fun _ => ?_))
macro_rules | `(tactic| safe_step) => `(tactic| with_reducible refine Safe.ite (fun _ => ?_) (fun _ => ?_))
macro_rules | `(tactic| safe_step) => `(tactic| with_reducible refine Safe.opt (fun _ => ?_))
macro_rules | `(tactic| safe_step) => `(tactic| with_reducible refine Safe.rep ?_ _)
macro_rules | `(tactic| safe_step) => `(tactic| with_reducible refine Safe.attempt ?_)
macro_rules | `(tactic| safe_step) => `(tactic| with_reducible exact Safe.pure _)
macro_rules | `(tactic| safe_step) => `(tactic| with_reducible exact Safe.ret _)
macro_rules | `(tactic| safe_step) => `(tactic| with_reducible exact Safe.null)
macro_rules | `(tactic| safe_step) => `(tactic| with_reducible exact Safe.u _)
macro_rules | `(tactic| safe_step) => `(tactic| with_reducible exact Safe.peek _)
macro_rules | `(tactic| safe_step) => `(tactic| with_reducible exact Safe.ue)
macro_rules | `(tactic| safe_step) => `(tactic| with_reducible exact Safe.se)
macro_rules | `(tactic| safe_step) => `(tactic| with_reducible exact Safe.remaining)
macro_rules | `(tactic| safe_step) => `(tactic| with_reducible exact Safe.aligned)
macro_rules | `(tactic| safe_step) => `(tactic| with_reducible exact Safe.unimpl)
macro_rules | `(tactic| safe_step) => `(tactic| with_reducible exact Safe.guard _)
macro_rules | `(tactic| safe_step) => `(tactic| with_reducible exact Safe.ueIn)
macro_rules | `(tactic| safe_step) => `(tactic| with_reducible assumption)
/-- Prove `Safe p` by structure. -/
macro "safe" : tactic => `(tactic| repeat' safe_step)

/-- One step of `modeindep`. -/
syntax "mode_step" : tactic
macro_rules | `(tactic| mode_step) => `(tactic| with_reducible refine ModeIndep.bind ?_ (fun _ => ?_))
macro_rules | `(tactic| mode_step) => `(tactic| with_reducible refine ModeIndep.ite (fun _ => ?_) (fun _ => ?_))
macro_rules | `(tactic| mode_step) => `(tactic| with_reducible refine ModeIndep.opt (fun _ => ?_))
macro_rules | `(tactic| mode_step) => `(tactic| with_reducible refine ModeIndep.rep ?_ _)
macro_rules | `(tactic| mode_step) => `(tactic| with_reducible exact ModeIndep.lift _)
macro_rules | `(tactic| mode_step) => `(tactic| with_reducible exact ModeIndep.pure _)
macro_rules | `(tactic| mode_step) => `(tactic| with_reducible exact ModeIndep.ret _)
macro_rules | `(tactic| mode_step) => `(tactic| with_reducible exact ModeIndep.null)
macro_rules | `(tactic| mode_step) => `(tactic| with_reducible exact ModeIndep.bad _)
macro_rules | `(tactic| mode_step) => `(tactic| with_reducible exact ModeIndep.u _)
macro_rules | `(tactic| mode_step) => `(tactic| with_reducible exact ModeIndep.peek _)
macro_rules | `(tactic| mode_step) => `(tactic| with_reducible exact ModeIndep.ue)
macro_rules | `(tactic| mode_step) => `(tactic| with_reducible exact ModeIndep.se)
macro_rules | `(tactic| mode_step) => `(tactic| with_reducible exact ModeIndep.remaining)
macro_rules | `(tactic| mode_step) => `(tactic| with_reducible exact ModeIndep.aligned)
macro_rules | `(tactic| mode_step) => `(tactic| with_reducible exact ModeIndep.unimpl)
macro_rules | `(tactic| mode_step) => `(tactic| with_reducible exact ModeIndep.guard _)
macro_rules | `(tactic| mode_step) => `(tactic| with_reducible exact ModeIndep.ueIn)
macro_rules | `(tactic| mode_step) => `(tactic| with_reducible assumption)
/-- Prove `ModeIndep p` by structure. -/
macro "modeindep" : tactic => `(tactic| repeat' mode_step)

theorem safe_svcHeaderExt : Safe parseSvcHeaderExt := by unfold parseSvcHeaderExt; safe
theorem safe_nalHeader : Safe parseNalHeader := by
  unfold parseNalHeader parseExtFlags parseExtBody parseSvcHeaderExt; safe
theorem safe_hrd : Safe parseHrd := by unfold parseHrd parseHrdEntry; safe
theorem safe_vui : Safe parseVui := by
  unfold parseVui parseAspectRatio parseSar parseVideoSignal parseColour parseChromaLoc parseTiming parseOptHrd
    parseRestriction
  have := safe_hrd
  safe
macro_rules | `(tactic| safe_step) => `(tactic| with_reducible exact safe_svcHeaderExt)
macro_rules | `(tactic| safe_step) => `(tactic| with_reducible exact safe_nalHeader)
macro_rules | `(tactic| safe_step) => `(tactic| with_reducible exact safe_hrd)
macro_rules | `(tactic| safe_step) => `(tactic| with_reducible exact safe_vui)

theorem mode_nalHeader : ModeIndep parseNalHeader := by
  unfold parseNalHeader parseExtFlags parseExtBody parseSvcHeaderExt; modeindep
theorem mode_hrd : ModeIndep parseHrd := by unfold parseHrd parseHrdEntry; modeindep
theorem mode_vui : ModeIndep parseVui := by
  unfold parseVui parseAspectRatio parseSar parseVideoSignal parseColour parseChromaLoc parseTiming parseOptHrd
    parseRestriction
  have := mode_hrd
  modeindep
macro_rules | `(tactic| mode_step) => `(tactic| with_reducible exact mode_nalHeader)
macro_rules | `(tactic| mode_step) => `(tactic| with_reducible exact mode_hrd)
macro_rules | `(tactic| mode_step) => `(tactic| with_reducible exact mode_vui)

end H264
