import Verif.Codecs.Basic
import Verif.Auto
import Verif.Model.Sps
import Verif.Spec.Syntax2

/-
Lemmas on more_rbsp_data(), rbsp_trailing_bits(), scaling_list() and the SPS parser.
-/

namespace H264
open Prog

theorem toU32_eq {x : Int} (h1 : 0 ≤ x) (h2 : x < 2 ^ 32) : toU32 x = x.toNat := by
  unfold toU32
  rw [Int.emod_eq_of_lt h1 h2]

/-! ### RBSP end -/

theorem runL_trailingLoop (nd : Bool) : ∀ (n : Nat) (l : List Bool) (c : Nat), l.length < n →
    (∀ s', runL nd (trailingLoop n) ⟨l, c⟩ = .ok () s' ↔
      ∃ k r, l = List.replicate k false ++ r ∧ k = l.length % 8 ∧ s' = ⟨r, c⟩) ∧
    (∀ e, runL nd (trailingLoop n) ⟨l, c⟩ ≠ .bad e) := by
  intro n
  induction n with
  | zero => intro l c h; omega
  | succ n ih =>
    intro l c h
    unfold trailingLoop
    rw [runL_bind, runL_aligned]
    simp only [Out.bind]
    by_cases ha : l.length % 8 = 0
    · simp only [ha, decide_true, if_true, Prog.pure_eq, runL_ret]
      refine ⟨fun s' => ?_, fun e => by simp⟩
      constructor
      · intro h'; cases h'; exact ⟨0, l, by simp, rfl, rfl⟩
      · rintro ⟨k, r, h1, rfl, rfl⟩
        simp at h1; rw [h1]
    · simp only [ha, decide_false]
      match l, h, ha with
      | [], _, ha => simp at ha
      | b :: l, h, ha =>
        have hu : runL nd (u 1) ⟨b :: l, c⟩ = .ok (if b then 1 else 0) ⟨l, c⟩ := by
          rw [runL_u, if_neg (by simp)]
          cases b <;> simp [bitsVal]
        have hn : l.length < n := by simp at h; omega
        simp only [Bool.false_eq_true, if_false, runL_bind, hu, Out.bind, runL_guard]
        cases b with
        | true =>
          simp only [if_true, Nat.one_ne_zero, if_false]
          refine ⟨fun s' => ⟨fun h' => by simp at h', ?_⟩, fun e => by simp⟩
          rintro ⟨k, r, h1, h2, _⟩
          cases k with
          | zero => omega
          | succ k => simp [List.replicate_succ] at h1
        | false =>
          simp only [Bool.false_eq_true, if_false, if_true]
          obtain ⟨i1, i2⟩ := ih l c hn
          refine ⟨fun s' => ?_, i2⟩
          rw [i1 s']
          simp only [List.length_cons] at *
          constructor
          · rintro ⟨k, r, h1, h2, h3⟩
            exact ⟨k + 1, r, by rw [h1]; simp [List.replicate_succ], by omega, h3⟩
          · rintro ⟨k, r, h1, h2, h3⟩
            cases k with
            | zero => omega
            | succ k =>
              simp [List.replicate_succ] at h1
              exact ⟨k, r, h1, by omega, h3⟩

theorem runL_u1_cons (nd : Bool) (b : Bool) (l : List Bool) (c : Nat) :
    runL nd (u 1) ⟨b :: l, c⟩ = .ok (if b then 1 else 0) ⟨l, c⟩ := by
  rw [runL_u, if_neg (by simp)]
  cases b <;> simp [bitsVal]

theorem runL_trailing (nd : Bool) (l : List Bool) (c : Nat) (s' : LSt) :
    runL nd rbspTrailingBits ⟨l, c⟩ = .ok () s' ↔
      ∃ k r, l = trailingBits k ++ r ∧ k < 8 ∧ r.length % 8 = 0 ∧ s' = ⟨r, c⟩ := by
  unfold rbspTrailingBits trailingBits
  match l with
  | [] =>
    rw [runL_bind, runL_u, if_pos (by simp)]
    simp [Out.bind]
  | b :: l =>
    simp only [runL_bind, runL_u1_cons, Out.bind, runL_guard, runL_remaining]
    cases b with
    | false => simp
    | true =>
      simp only [if_true]
      rw [(runL_trailingLoop nd _ l c (by omega)).1 s']
      constructor
      · rintro ⟨k, r, h1, h2, h3⟩
        have := congrArg List.length h1
        simp at this
        exact ⟨k, r, by rw [h1]; simp, by omega, by omega, h3⟩
      · rintro ⟨k, r, h1, h2, h3, h4⟩
        simp at h1
        refine ⟨k, r, h1, ?_, h4⟩
        have := congrArg List.length h1
        simp at this
        omega

theorem safe_trailing : Safe rbspTrailingBits := by
  unfold rbspTrailingBits
  refine Safe.bind (Safe.u _) (fun _ => Safe.bind (Safe.guard _) (fun _ => ?_))
  intro nd s e h
  rw [runL_bind, runL_remaining] at h
  simp only [Out.bind] at h
  exact (runL_trailingLoop nd (s.rem.length + 1) s.rem s.cnt (by omega)).2 e h

/-- What `more_rbsp_data` computes. -/
def moreData (l : List Bool) : Bool :=
  decide (l ≠ []) && (decide (8 < l.length) || !(decide (l = true :: List.replicate (l.length - 1) false)))

theorem bitsVal_replicate_false (n : Nat) : bitsVal (List.replicate n false) = 0 := by
  induction n with
  | zero => rfl
  | succ n ih => simp [List.replicate_succ, bitsVal_cons, ih]

theorem runL_more (nd : Bool) (s : LSt) : runL nd moreRbspData s = .ok (moreData s.rem) s := by
  unfold moreRbspData moreData
  rw [runL_bind, runL_remaining]
  simp only [Out.bind]
  by_cases h0 : s.rem.length = 0
  · have : s.rem = [] := List.length_eq_zero_iff.mp h0
    simp [this]
  · have hne : s.rem ≠ [] := fun h => h0 (by rw [h]; rfl)
    rw [if_neg h0]
    by_cases h8 : s.rem.length > 8
    · rw [if_pos h8]
      simp [hne, h8]
    · rw [if_neg h8]
      simp only [runL_bind, runL_attempt, runL_peek]
      rw [if_neg (by omega)]
      simp only [Out.bind, List.take_of_length_le (Nat.le_refl _), Prog.pure_eq, runL_ret, Out.ok.injEq, and_true]
      have e8 : decide (8 < s.rem.length) = false := by simp; omega
      rw [e8, show decide (s.rem ≠ []) = true by simp [hne], Bool.true_and, Bool.false_or]
      congr 1
      have hx : bitsVal (true :: List.replicate (s.rem.length - 1) false) = 2 ^ (s.rem.length - 1) := by
        simp [bitsVal_cons, bitsVal_replicate_false]
      have : (bitsVal s.rem = 2 ^ (s.rem.length - 1)) ↔ s.rem = true :: List.replicate (s.rem.length - 1) false := by
        constructor
        · intro h
          have h1 := encU_bitsVal s.rem
          have h2 := encU_bitsVal (true :: List.replicate (s.rem.length - 1) false)
          rw [hx] at h2
          rw [h] at h1
          rw [← h1]
          rw [show (true :: List.replicate (s.rem.length - 1) false).length = s.rem.length by simp; omega] at h2
          rw [h2]; simp
        · intro h
          rw [← hx, ← h]
      rw [Bool.eq_iff_iff]
      simp [this]

theorem safe_more : Safe moreRbspData := by intro nd s e; rw [runL_more]; simp
theorem mode_more : ModeIndep moreRbspData := by
  intro s; rw [runL_more, runL_more]; exact ModeIndep.same_refl _

/-! ### Scaling lists -/

theorem setEntry_nil (i x : Nat) : setEntry [] i x = List.replicate i 0 ++ [x] := by
  induction i with
  | zero => rfl
  | succ i ih => simp [setEntry, ih, List.replicate_succ]

theorem setGrow_eq : ∀ (v : List Nat) (i x : Nat), setGrow v i x = setEntry v i x := by
  intro v
  induction v with
  | nil =>
    intro i x
    rw [setEntry_nil]
    unfold setGrow
    simp only [List.nil_append, List.length_nil, Nat.sub_zero]
    rw [List.replicate_succ', List.set_append_right _ _ (by simp)]
    simp
  | cons a v ih =>
    intro i x
    cases i with
    | zero => simp [setGrow, setEntry]
    | succ i =>
      have := ih i x
      unfold setGrow at *
      simp only [List.length_cons, List.cons_append, List.set_cons_succ, setEntry]
      rw [show i + 1 + 1 - (v.length + 1) = i + 1 - v.length by omega, this]

theorem setEntry_setEntry : ∀ (v : List Nat) (i x y : Nat), setEntry (setEntry v i x) i y = setEntry v i y := by
  intro v i
  induction i generalizing v with
  | zero => intro x y; cases v <;> rfl
  | succ i ih => intro x y; cases v <;> simp [setEntry, ih]

theorem setEntry_eq_take : ∀ (v : List Nat) (j x : Nat), j ≤ v.length →
    setEntry v j x = v.take j ++ x :: v.drop (j + 1) := by
  intro v j
  induction j generalizing v with
  | zero => intro x _; cases v <;> rfl
  | succ j ih =>
    intro x h
    cases v with
    | nil => simp at h
    | cons a v => simp only [setEntry, ih v x (by simpa using h)]; rfl

theorem ScalingList.zero_deltas {n last : Nat} {ds : List Int} {out : List Nat}
    (h : ScalingList n last 0 ds out) : ds = [] := by
  generalize hz : 0 = z at h
  induction h with
  | done => rfl
  | read hn => exact absurd hz.symm hn
  | keep _ ih => exact ih rfl

theorem ScalingList.out_length {n last next : Nat} {ds : List Int} {out : List Nat}
    (h : ScalingList n last next ds out) : out.length = n := by
  induction h with
  | done => rfl
  | read _ _ _ _ _ _ ih => simp [ih]
  | keep _ ih => simp [ih]

theorem splice_eq (v out : List Nat) (j n x : Nat) (h : j ≤ v.length) :
    (setEntry v j x).take (j + 1) ++ out ++ (setEntry v j x).drop (j + 1 + n) =
      v.take j ++ (x :: out) ++ v.drop (j + (n + 1)) := by
  rw [setEntry_eq_take _ _ _ h]
  have hlen : (v.take j).length = j := by simp; omega
  have h1 : (v.take j ++ x :: v.drop (j + 1)).take (j + 1) = v.take j ++ [x] := by
    rw [show v.take j ++ x :: v.drop (j + 1) = (v.take j ++ [x]) ++ v.drop (j + 1) by simp]
    exact List.take_left' (by simp; omega)
  have h2 : (v.take j ++ x :: v.drop (j + 1)).drop (j + 1 + n) = v.drop (j + (n + 1)) := by
    rw [← List.drop_drop, show v.take j ++ x :: v.drop (j + 1) = (v.take j ++ [x]) ++ v.drop (j + 1) by simp,
      List.drop_left' (by simp; omega), List.drop_drop, show j + 1 + n = j + (n + 1) by omega]
  rw [h1, h2]
  simp

/-- The state after a well-formed list. -/
def slFinal (i n j last : Nat) (s : SLSt) (ds : List Int) (out : List Nat) : SLSt :=
  { list := s.list.take j ++ out ++ s.list.drop (j + n),
    useDef := match ds with
      | [] => s.useDef
      | d :: _ => setEntry s.useDef i (if j = 0 ∧ ((last : Int) + d + 256) % 256 = 0 then 1 else 0),
    delta := ds.getLast?.getD s.delta }

theorem runL_lift_val {α : Type} (nd : Bool) (a : α) (s : LSt) : runL nd (lift (.val a)) s = .ok a s := rfl

theorem next_eq {last nx : Nat} {d : Int} (h1 : last ≤ 255) (h2 : -128 ≤ d) (h3 : d ≤ 127)
    (h : (nx : Int) = ((last : Int) + d + 256) % 256) : toU32 ((last : Int) + d + 256) % 256 = nx := by
  rw [toU32_eq (by omega) (by omega)]
  omega

theorem scalingLoop_ok (nd : Bool) (i : Nat) {n last next : Nat} {ds : List Int} {out : List Nat}
    (h : ScalingList n last next ds out) : ∀ (j : Nat) (s : SLSt) (r : List Bool) (c : Nat), last ≤ 255 →
    j ≤ s.list.length →
    runL nd (scalingLoop i n j last next s) ⟨encDeltas ds ++ r, c⟩ = .ok (true, slFinal i n j last s ds out) ⟨r, c⟩ := by
  induction h with
  | done last next =>
    intro j s r c _ hj
    simp only [scalingLoop, encDeltas, List.flatMap_nil, List.nil_append, Prog.pure_eq, runL_ret, slFinal,
      List.append_nil, Nat.add_zero, List.take_append_drop, List.getLast?_nil, Option.getD_none]
  | @read n last next d ds nx entry out hn hd1 hd2 hnx he hrest ih =>
    intro j s r c hl hj
    have hnx' : nx ≤ 255 := by omega
    have hent : entry ≤ 255 := by rw [he]; split <;> omega
    unfold scalingLoop
    rw [if_pos hn, runL_bind, runL_attempt]
    have hse := Codec.se.parse_append nd (a := d) ⟨by omega, by omega⟩ (encDeltas ds ++ r) c
    have hl' : encDeltas (d :: ds) ++ r = encSE d ++ (encDeltas ds ++ r) := by simp [encDeltas]
    rw [hl', hse]
    simp only [Out.bind]
    rw [if_neg (by omega), toI32_eq (by omega), sint_eq (by omega) (by omega), runL_bind, runL_lift_val]
    simp only [Out.bind]
    rw [sint_eq (by omega) (by omega), runL_bind, runL_lift_val]
    simp only [Out.bind, next_eq hl hd1 hd2 hnx, ← he]
    rw [ih (j + 1) _ r c hent (by simp only [setGrow_eq, setEntry_eq_take _ _ _ hj]; simp; omega)]
    congr 2
    unfold slFinal
    simp only [setGrow_eq]
    congr 1
    · exact splice_eq _ _ _ _ _ hj
    · have hz : nx = 0 ↔ ((last : Int) + d + 256) % 256 = 0 := by omega
      cases ds with
      | nil => simp only [hz]
      | cons d2 ds =>
        have hne : nx ≠ 0 := by
          intro h0; rw [h0] at hrest
          exact absurd hrest.zero_deltas (by simp)
        simp only [setEntry_setEntry, ← hz, hne, and_false, Nat.add_eq_zero_iff, Nat.one_ne_zero, false_and]
    · cases ds with
      | nil => rfl
      | cons d2 ds => simp [List.getLast?_cons]
  | @keep n last ds out hrest ih =>
    intro j s r c hl hj
    have hz := hrest.zero_deltas
    subst hz
    unfold scalingLoop
    rw [if_neg (by simp)]
    rw [ih (j + 1) _ r c hl (by simp only [setGrow_eq, setEntry_eq_take _ _ _ hj]; simp; omega)]
    congr 2
    unfold slFinal
    simp only [setGrow_eq]
    congr 1
    exact splice_eq _ _ _ _ _ hj

/-- Whatever the bits, `scaling_list` terminates normally: it returns true on a well-formed list, false otherwise. -/
theorem scalingLoop_total (nd : Bool) (i : Nat) : ∀ (n j last next : Nat) (s : SLSt) (l : List Bool) (c : Nat),
    last ≤ 255 →
    (∃ ds out r, ScalingList n last next ds out ∧ l = encDeltas ds ++ r) ∨
    (∃ ds rest, l = encDeltas ds ++ rest ∧ BrokenList n last next ds rest ∧
      ∃ s1 r, runL nd (scalingLoop i n j last next s) ⟨l, c⟩ = .ok (false, s1) ⟨r, c⟩) := by
  intro n
  induction n with
  | zero => intro j last next s l c _; exact Or.inl ⟨[], [], l, .done _ _, rfl⟩
  | succ n ih =>
    intro j last next s l c hl
    by_cases hn : next = 0
    · subst hn
      rcases ih (j + 1) last 0 { s with list := setGrow s.list j last } l c hl with
        ⟨ds, out, r, h1, h2⟩ | ⟨ds, rest, h1, h2, _⟩
      · exact Or.inl ⟨ds, last :: out, r, .keep h1, h2⟩
      · exfalso
        cases h2 with
        | here h _ => exact h rfl
        | later h _ _ _ _ => exact h rfl
    · cases hse : runL nd se ⟨l, c⟩ with
      | bad e => exact absurd hse (Safe.se nd _ e)
      | null s1 =>
        refine Or.inr ⟨[], l, rfl, .here hn ?_, ?_⟩
        · rintro d r rfl ⟨h1, h2⟩
          rw [Codec.se.parse_append nd (a := d) ⟨by omega, by omega⟩ r c] at hse
          simp at hse
        · have hc : s1.cnt = c := by
            rw [runL_se] at hse
            cases hu : ueDec l with
            | none => simp only [hu, Out.null.injEq] at hse; rw [← hse]
            | some p => simp [hu] at hse
          refine ⟨s, s1.rem, ?_⟩
          unfold scalingLoop
          rw [if_pos hn, runL_bind, runL_attempt, hse]
          simp only [Out.bind, Prog.pure_eq, runL_ret]
          rw [← hc]
      | ok d s1 =>
        obtain ⟨hd, r, rfl, rfl⟩ := (Codec.se nd l c d s1).mp hse
        by_cases hr : -128 ≤ d ∧ d ≤ 127
        · obtain ⟨nx, hnx⟩ : ∃ nx : Nat, (nx : Int) = ((last : Int) + d + 256) % 256 :=
            ⟨(((last : Int) + d + 256) % 256).toNat, by omega⟩
          have hent : (if nx = 0 then last else nx) ≤ 255 := by split <;> omega
          have hstep : ∃ s2, runL nd (scalingLoop i (n + 1) j last next s) ⟨encSE d ++ r, c⟩ =
              runL nd (scalingLoop i n (j + 1) (if nx = 0 then last else nx) nx s2) ⟨r, c⟩ := by
            refine ⟨{ list := setGrow s.list j (if nx = 0 then last else nx),
                      useDef := setGrow s.useDef i (if j = 0 ∧ nx = 0 then 1 else 0), delta := d }, ?_⟩
            conv => lhs; unfold scalingLoop
            rw [if_pos hn, runL_bind, runL_attempt, hse]
            simp only [Out.bind]
            rw [if_neg (by omega), toI32_eq (by omega), sint_eq (by omega) (by omega), runL_bind, runL_lift_val]
            simp only [Out.bind]
            rw [sint_eq (by omega) (by omega), runL_bind, runL_lift_val]
            simp only [Out.bind, next_eq hl hr.1 hr.2 hnx]
          obtain ⟨s2, hstep⟩ := hstep
          rcases ih (j + 1) (if nx = 0 then last else nx) nx s2 r c hent with
            ⟨ds, out, r', h1, h2⟩ | ⟨ds, rest, h1, h2, s3, r', h3⟩
          · exact Or.inl ⟨d :: ds, _ :: out, r', .read hn hr.1 hr.2 hnx rfl h1, by rw [h2]; simp [encDeltas]⟩
          · refine Or.inr ⟨d :: ds, rest, by rw [h1]; simp [encDeltas], .later hn hr.1 hr.2 hnx h2, s3, r', ?_⟩
            rw [hstep, h3]
        · refine Or.inr ⟨[], encSE d ++ r, rfl, .here hn ?_, { s with delta := d }, r, ?_⟩
          · rintro d' r' he ⟨h1, h2⟩
            have := Codec.se.parse_append nd (a := d') ⟨by omega, by omega⟩ r' c
            rw [← he, hse] at this
            simp only [Out.ok.injEq] at this
            omega
          · unfold scalingLoop
            rw [if_pos hn, runL_bind, runL_attempt, hse]
            simp only [Out.bind]
            rw [if_pos (by omega)]
            rfl

theorem scalingList_ok (nd : Bool) (i size : Nat) {x : SL} (h : ScalingList size 8 8 x.deltas x.list) (h0 : size ≠ 0)
    (s : SLSt) (hs : s.list.length ≤ size) (r : List Bool) (c : Nat) :
    runL nd (scalingList i size s) ⟨encDeltas x.deltas ++ r, c⟩ =
      .ok (true, ⟨x.list, setEntry s.useDef i x.useDefault, x.lastDelta⟩) ⟨r, c⟩ := by
  unfold scalingList
  rw [scalingLoop_ok nd i h 0 s r c (by omega) (by omega)]
  congr 2
  have hd : ∃ d ds, x.deltas = d :: ds ∧ -128 ≤ d ∧ d ≤ 127 := by
    generalize hx : x.deltas = dd at h
    generalize x.list = ll at h
    cases h with
    | done => exact absurd rfl h0
    | @read n _ _ d ds _ _ _ _ h1 h2 => exact ⟨d, ds, rfl, h1, h2⟩
  obtain ⟨d, ds, hd, h1, h2⟩ := hd
  unfold slFinal SL.useDefault SL.lastDelta
  rw [hd]
  congr 1
  · rw [List.take_zero, List.drop_eq_nil_of_le (by omega)]; simp
  · simp only [true_and, List.head?_cons, Option.some.injEq]
    have : (((8 : Nat) : Int) + d + 256) % 256 = 0 ↔ d = -8 := by omega
    simp only [this]

theorem scalingList_total (nd : Bool) (i size : Nat) (s : SLSt) (l : List Bool) (c : Nat) :
    (∃ x : SL, ScalingList size 8 8 x.deltas x.list ∧ ∃ r, l = encDeltas x.deltas ++ r) ∨
    (∃ ds rest, l = encDeltas ds ++ rest ∧ BrokenList size 8 8 ds rest ∧
      ∃ s1 r, runL nd (scalingList i size s) ⟨l, c⟩ = .ok (false, s1) ⟨r, c⟩) := by
  rcases scalingLoop_total nd i size 0 8 8 s l c (by omega) with ⟨ds, out, r, h1, h2⟩ | h
  · exact Or.inl ⟨⟨ds, out⟩, h1, r, h2⟩
  · exact Or.inr h

theorem safe_scalingList (i size : Nat) (s : SLSt) : Safe (scalingList i size s) := by
  intro nd st e h
  rcases scalingList_total nd i size s st.rem st.cnt with ⟨x, h1, r, h2⟩ | ⟨_, _, _, _, s1, r, h2⟩
  · have := scalingLoop_ok nd i h1 0 s r st.cnt (by omega) (by omega)
    rw [← h2] at this
    unfold scalingList at h
    rw [this] at h
    simp at h
  · rw [h2] at h
    simp at h
macro_rules | `(tactic| safe_step) => `(tactic| with_reducible exact safe_scalingList _ _ _)

theorem safe_scalingCall (i : Nat) (s : Scal) : Safe (scalingCall i s) := by unfold scalingCall; safe

theorem safe_scalingLists : ∀ (n i : Nat) (s : Scal), Safe (scalingLists n i s) := by
  intro n
  induction n with
  | zero => intro i s; exact Safe.pure _
  | succ n ih =>
    intro i s
    unfold scalingLists
    have := safe_scalingCall
    safe
    · exact this _ _
    · exact ih _ _
macro_rules | `(tactic| safe_step) => `(tactic| with_reducible exact safe_scalingLists _ _ _)

/-- The invariant of the two vectors. -/
def Scal.Small (s : Scal) : Prop := s.ScalingList4x4.length ≤ 16 ∧ s.ScalingList8x8.length ≤ 64

theorem scalingCall_ok (nd : Bool) (i : Nat) {x : SL} (h : x.Ok i) (s : Scal) (hs : s.Small) (r : List Bool) (c : Nat) :
    runL nd (scalingCall i s) ⟨encDeltas x.deltas ++ r, c⟩ = .ok
      (if i < 6 then
        { s with ScalingList4x4 := x.list,
                 UseDefaultScalingMatrix4x4Flag := setEntry s.UseDefaultScalingMatrix4x4Flag i x.useDefault,
                 delta_scale := x.lastDelta }
       else
        { s with UseDefaultScalingMatrix4x4Flag := setEntry s.UseDefaultScalingMatrix4x4Flag (i - 6) x.useDefault,
                 ScalingList8x8 := x.list, delta_scale := x.lastDelta }) ⟨r, c⟩ := by
  unfold scalingCall
  unfold SL.Ok at h
  by_cases hi : i < 6
  · rw [if_pos hi] at h ⊢
    rw [if_pos hi, runL_bind, scalingList_ok nd i 16 h (by omega) _ hs.1]
    rfl
  · rw [if_neg hi] at h ⊢
    rw [if_neg hi, runL_bind, scalingList_ok nd (i - 6) 64 h (by omega) _ hs.2]
    rfl

theorem SL.Ok.length {i : Nat} {x : SL} (h : x.Ok i) : x.list.length = if i < 6 then 16 else 64 :=
  ScalingList.out_length h

theorem runL_flag (nd : Bool) {f : Nat} (h : f < 2) (r : List Bool) (c : Nat) :
    runL nd (u 1) ⟨encU 1 f ++ r, c⟩ = .ok f ⟨r, c⟩ :=
  (Codec.u (n := 1) (by omega) (by omega)).parse_append nd (a := f) (by omega) r c

theorem scalingLists_ok (nd : Bool) : ∀ (ls : List (Option SL)) (i : Nat) (s : Scal) (r : List Bool) (c : Nat),
    s.Small → ListsOk i ls →
    runL nd (scalingLists ls.length i s) ⟨encLists ls ++ r, c⟩ = .ok (keepLists i s ls) ⟨r, c⟩ := by
  intro ls
  induction ls with
  | nil => intro i s r c _ _; rfl
  | cons o ls ih =>
    intro i s r c hs hok
    rw [List.length_cons]
    unfold scalingLists
    cases o with
    | none =>
      rw [show encLists (none :: ls) ++ r = encU 1 0 ++ (encLists ls ++ r) by simp [encLists]]
      rw [runL_bind, runL_flag nd (by omega)]
      simp only [Out.bind]
      rw [runL_bind]
      unfold opt
      rw [if_neg (by omega)]
      exact ih (i + 1) _ r c hs hok
    | some x =>
      rw [show encLists (some x :: ls) ++ r = encU 1 1 ++ (encDeltas x.deltas ++ (encLists ls ++ r)) by
        simp [encLists]]
      rw [runL_bind, runL_flag nd (by omega)]
      simp only [Out.bind]
      rw [runL_bind]
      unfold opt
      rw [if_pos (by omega), scalingCall_ok nd i hok.1 _ (by exact hs)]
      simp only [Out.bind]
      have hlen := hok.1.length
      rw [ih (i + 1) _ r c _ hok.2]
      · congr 1
      · by_cases hi : i < 6
        · rw [if_pos hi] at hlen ⊢
          exact ⟨Nat.le_of_eq hlen, hs.2⟩
        · rw [if_neg hi] at hlen ⊢
          exact ⟨hs.1, Nat.le_of_eq hlen⟩

theorem scalingLists_only (nd : Bool) : ∀ (n i : Nat) (s s' : Scal) (l : List Bool) (c : Nat) (st : LSt), s.Small →
    runL nd (scalingLists n i s) ⟨l, c⟩ = .ok s' st →
    (∃ ls r, ls.length = n ∧ ListsOk i ls ∧ l = encLists ls ++ r ∧ s' = keepLists i s ls ∧ st = ⟨r, c⟩) ∨
    MalformedLists n i l := by
  intro n
  induction n with
  | zero =>
    intro i s s' l c st _ h
    simp only [scalingLists, Prog.pure_eq, runL_ret, Out.ok.injEq] at h
    exact Or.inl ⟨[], l, rfl, trivial, rfl, h.1.symm, h.2.symm⟩
  | succ n ih =>
    intro i s s' l c st hs h
    have h' := h
    unfold scalingLists at h
    rw [runL_bind_ok] at h
    obtain ⟨f, s1, hf, h⟩ := h
    obtain ⟨hf2, r, rfl, rfl⟩ := ((Codec.u (n := 1) (by omega) (by omega)) nd l c f s1).mp hf
    rw [runL_bind_ok] at h
    obtain ⟨sc, s2, hsc, h⟩ := h
    unfold opt at hsc
    by_cases hf0 : f = 0
    · subst hf0
      rw [if_neg (by omega)] at hsc
      simp only [Prog.pure_eq, runL_ret, Out.ok.injEq] at hsc
      obtain ⟨rfl, rfl⟩ := hsc
      rcases ih (i + 1) _ s' r c st (by exact hs) h with ⟨ls, r', h1, h2, h3, h4, h5⟩ | ⟨ls, ds, rest, h1, h2, h3, h4⟩
      · exact Or.inl ⟨none :: ls, r', by simp [h1], h2, by rw [h3]; simp [encLists], h4, h5⟩
      · refine Or.inr ⟨none :: ls, ds, rest, by simp; omega, h2, by rw [h3]; simp [encLists], ?_⟩
        rw [show i + (none :: ls : List (Option SL)).length = i + 1 + ls.length by simp; omega]
        exact h4
    · have hf1 : f = 1 := by omega
      subst hf1
      rw [if_pos (by omega)] at hsc
      have htot := scalingList_total nd (if i < 6 then i else i - 6) (if i < 6 then 16 else 64)
        (if i < 6 then ⟨s.ScalingList4x4, s.UseDefaultScalingMatrix4x4Flag, s.delta_scale⟩
          else ⟨s.ScalingList8x8, s.UseDefaultScalingMatrix4x4Flag, s.delta_scale⟩) r c
      rcases htot with ⟨x, hx, r1, hr1⟩ | ⟨ds, rest, h1, h2, _⟩
      · subst hr1
        rw [scalingCall_ok nd i (x := x) hx _ (by exact hs)] at hsc
        simp only [Out.ok.injEq] at hsc
        obtain ⟨hsc, rfl⟩ := hsc
        have hlen := SL.Ok.length (i := i) (x := x) hx
        have hsm : sc.Small := by
          rw [← hsc]
          by_cases hi : i < 6
          · rw [if_pos hi] at hlen ⊢
            exact ⟨Nat.le_of_eq hlen, hs.2⟩
          · rw [if_neg hi] at hlen ⊢
            exact ⟨hs.1, Nat.le_of_eq hlen⟩
        rcases ih (i + 1) sc s' r1 c st hsm h with ⟨ls, r', h1, h2, h3, h4, h5⟩ | ⟨ls, ds, rest, h1, h2, h3, h4⟩
        · refine Or.inl ⟨some x :: ls, r', by simp [h1], ⟨hx, h2⟩, by rw [h3]; simp [encLists], ?_, h5⟩
          rw [h4, ← hsc]
          rfl
        · refine Or.inr ⟨some x :: ls, ds, rest, by simp; omega, ⟨hx, h2⟩, by rw [h3]; simp [encLists], ?_⟩
          rw [show i + (some x :: ls : List (Option SL)).length = i + 1 + ls.length by simp; omega]
          exact h4
      · exact Or.inr ⟨[], ds, rest, by simp, trivial, by rw [h1]; simp [encLists], h2⟩

/-! ### SPS head -/

theorem hasChromaInfo_iff (p : Nat) : hasChromaInfo p = true ↔ p ∈ chromaProfiles := by
  simp only [hasChromaInfo, chromaProfiles, Bool.or_eq_true, beq_iff_eq, List.mem_cons, List.not_mem_nil, or_false,
    or_assoc]

theorem codec_chromaInfo (p : Nat) : Codec (parseChromaInfo p)
    (fun t => encIf (p ∈ chromaProfiles) (encUE t.1 ++ encIf (t.1 = 3) (encU 1 t.2.1) ++ encUE t.2.2.1 ++
      encUE t.2.2.2.1 ++ encU 1 t.2.2.2.2.1 ++ encU 1 t.2.2.2.2.2))
    (fun t => if p ∈ chromaProfiles then t.1 ≤ 3 ∧ (if t.1 = 3 then t.2.1 < 2 else t.2.1 = 0) ∧ t.2.2.1 ≤ 6 ∧
      t.2.2.2.1 ≤ 6 ∧ t.2.2.2.2.1 < 2 ∧ t.2.2.2.2.2 < 2 else t = (1, 0, 0, 0, 0, 0)) := by
  unfold parseChromaInfo
  refine Codec.congr (Codec.opt (fun _ =>
    rd (fun t : Nat × Nat × Nat × Nat × Nat × Nat => t.1) ← Codec.ueIn (by decide);
    rd (fun t : Nat × Nat × Nat × Nat × Nat × Nat => t.2.1) ← Codec.opt (fun _ => Codec.u');
    rd (fun t : Nat × Nat × Nat × Nat × Nat × Nat => t.2.2.1) ← Codec.ueIn (by decide);
    rd (fun t : Nat × Nat × Nat × Nat × Nat × Nat => t.2.2.2.1) ← Codec.ueIn (by decide);
    rd (fun t : Nat × Nat × Nat × Nat × Nat × Nat => t.2.2.2.2.1) ← Codec.u';
    rd (fun t : Nat × Nat × Nat × Nat × Nat × Nat => t.2.2.2.2.2) ← Codec.u';
    Codec.ret _)) ?_ ?_
  · rintro ⟨a, b, c, d, e, f⟩; simp [hasChromaInfo_iff]
  · rintro ⟨a, b, c, d, e, f⟩ _; simp [encIf, hasChromaInfo_iff]

theorem codec_spsHead : Codec parseSpsHead encSpsHead SpsHead.Ok := by
  unfold parseSpsHead
  refine Codec.congr (
    rd SpsHead.profile_idc as p hp ← Codec.u';
    rd SpsHead.constraint_set0_flag ← Codec.u';
    rd SpsHead.constraint_set1_flag ← Codec.u';
    rd SpsHead.constraint_set2_flag ← Codec.u';
    rd SpsHead.constraint_set3_flag ← Codec.u';
    rd SpsHead.constraint_set4_flag ← Codec.u';
    rd SpsHead.constraint_set5_flag ← Codec.u';
    rd SpsHead.reserved_zero_2bits ← Codec.u';
    rd SpsHead.level_idc ← Codec.u';
    rd SpsHead.seq_parameter_set_id ← Codec.ueIn (by decide);
    rd (fun h : SpsHead => (h.chroma_format_idc, h.separate_colour_plane_flag, h.bit_depth_luma_minus8,
      h.bit_depth_chroma_minus8, h.qpprime_y_zero_transform_bypass_flag, h.seq_scaling_matrix_present_flag)) ←
      codec_chromaInfo p;
    Codec.ret _) ?_ ?_
  · intro h
    constructor
    · rintro ⟨a1, a2, a3, a4, a5, a6, a7, a8, a9, a10, a11, -⟩
      by_cases hp : h.profile_idc ∈ chromaProfiles
      · rw [if_pos hp] at a11
        dsimp only at a11
        obtain ⟨b1, b2, b3, b4, b5, b6⟩ := a11
        refine ⟨a1, a2, a3, a4, a5, a6, a7, a8, a9, a10.2, b1, ?_, ?_, b3, b4, b5, b6, fun h => absurd hp h⟩
        · split at b2 <;> omega
        · intro h3; rw [if_neg h3] at b2; exact b2
      · rw [if_neg hp] at a11
        simp only [Prod.mk.injEq] at a11
        obtain ⟨b1, b2, b3, b4, b5, b6⟩ := a11
        exact ⟨a1, a2, a3, a4, a5, a6, a7, a8, a9, a10.2, by omega, by omega, fun _ => b2, by omega, by omega,
          by omega, by omega, fun _ => ⟨b1, b3, b4, b5, b6⟩⟩
    · rintro ⟨a1, a2, a3, a4, a5, a6, a7, a8, a9, a10, b1, b2, b2', b3, b4, b5, b6, hi⟩
      refine ⟨a1, a2, a3, a4, a5, a6, a7, a8, a9, ⟨Nat.zero_le _, a10⟩, ?_, rfl⟩
      by_cases hp : h.profile_idc ∈ chromaProfiles
      · rw [if_pos hp]
        refine ⟨b1, ?_, b3, b4, b5, b6⟩
        by_cases h3 : h.chroma_format_idc = 3
        · rw [if_pos h3]; exact b2
        · rw [if_neg h3]; exact b2' h3
      · rw [if_neg hp]
        obtain ⟨c1, c2, c3, c4, c5⟩ := hi hp
        have := b2' (by omega)
        simp only [c1, c2, c3, c4, c5, this]
  · intro h _
    unfold encSpsHead
    simp only [List.append_nil]
    simp only [List.append_assoc]

/-! ### SPS tail -/

theorem getCropUnitX_eq {h : SpsHead} (ok : h.Ok) : h.getCropUnitX = (cropUnitX h : Int) := by
  obtain ⟨_, _, _, _, _, _, _, _, _, _, h1, h2, h3, _, _, _, _, _⟩ := ok
  unfold SpsHead.getCropUnitX cropUnitX SpsHead.getChromaArrayType chromaArrayType SpsHead.getSubWidthC subWidthC
  rcases (by omega : h.separate_colour_plane_flag = 0 ∨ h.separate_colour_plane_flag = 1) with hs | hs <;> rw [hs]
  · rcases (by omega : h.chroma_format_idc = 0 ∨ h.chroma_format_idc = 1 ∨ h.chroma_format_idc = 2 ∨
      h.chroma_format_idc = 3) with hc | hc | hc | hc <;> rw [hc] <;> rfl
  · simp

theorem getCropUnitY_eq {h : SpsHead} (ok : h.Ok) {f : Nat} (hf : f < 2) :
    h.getCropUnitY f = .val (cropUnitY h f : Int) := by
  obtain ⟨_, _, _, _, _, _, _, _, _, _, h1, h2, h3, _, _, _, _, _⟩ := ok
  unfold SpsHead.getCropUnitY cropUnitY SpsHead.getChromaArrayType chromaArrayType SpsHead.getSubHeightC subHeightC
  rw [toI32_eq (by omega), sint_eq (by omega) (by omega)]
  simp only [Res.val_bind]
  rcases (by omega : h.separate_colour_plane_flag = 0 ∨ h.separate_colour_plane_flag = 1) with hs | hs <;> rw [hs]
  · rcases (by omega : h.chroma_format_idc = 0 ∨ h.chroma_format_idc = 1 ∨ h.chroma_format_idc = 2 ∨
      h.chroma_format_idc = 3) with hc | hc | hc | hc <;> rw [hc] <;>
    rcases (by omega : f = 0 ∨ f = 1) with hf | hf <;> rw [hf] <;>
    simp <;> (rw [sint_eq (by omega) (by omega)]) <;> rfl
  · rcases (by omega : f = 0 ∨ f = 1) with hf | hf <;> rw [hf] <;>
    simp <;> (rw [sint_eq (by omega) (by omega)]) <;> rfl

theorem cropUnitX_le (h : SpsHead) : cropUnitX h ≤ 2 := by
  unfold cropUnitX subWidthC; split <;> (try split) <;> omega
theorem cropUnitY_le (h : SpsHead) (f : Nat) : cropUnitY h f ≤ 4 := by
  unfold cropUnitY subHeightC
  split
  · omega
  · split <;> omega
theorem cropUnitX_pos (h : SpsHead) : 1 ≤ cropUnitX h := by
  unfold cropUnitX subWidthC; split <;> (try split) <;> omega

theorem cropOk_eq {h : SpsHead} (ok : h.Ok) {w hh f : Nat} (hw : w ≤ 1055) (h2 : hh ≤ 1055) (hf : f < 2)
    {l r t b : Nat} (hl : l ≤ 16880) (hr : r ≤ 16880) (ht : t ≤ 16880) (hb : b ≤ 16880) :
    cropOk h w hh f (l, r, t, b) = .val (decide (cropUnitX h * (l + r) < 16 * (w + 1) ∧
      cropUnitY h f * (t + b) < 16 * ((2 - f) * (hh + 1)))) := by
  have e1 := cropUnitX_le h
  have e2 := cropUnitY_le h f
  have m1 : cropUnitX h * (l + r) ≤ 2 * (l + r) := Nat.mul_le_mul_right _ e1
  have m2 : cropUnitY h f * (t + b) ≤ 4 * (t + b) := Nat.mul_le_mul_right _ e2
  have m3 : (2 - f) * (hh + 1) ≤ 2 * (hh + 1) := Nat.mul_le_mul_right _ (by omega)
  unfold cropOk
  rw [getCropUnitX_eq ok, getCropUnitY_eq ok hf]
  simp only [Res.val_bind]
  have u1 : toU32 (cropUnitX h : Int) = cropUnitX h := by rw [toU32_eq (by omega) (by omega)]; rfl
  have u2 : toU32 (cropUnitY h f : Int) = cropUnitY h f := by rw [toU32_eq (by omega) (by omega)]; rfl
  rw [u1, u2, add32_eq (a := w) (by omega), add32_eq (a := hh) (by omega), add32_eq (a := l) (by omega),
    add32_eq (a := t) (by omega), sub32_eq (by omega) (by omega), mul32_eq (a := 16) (b := w + 1) (by omega),
    mul32_eq (a := 16) (b := 2 - f) (by omega), mul32_eq (a := 16 * (2 - f)) (by rw [Nat.mul_assoc]; omega),
    mul32_eq (a := cropUnitX h) (by omega), mul32_eq (a := cropUnitY h f) (by omega), Nat.mul_assoc 16]
  show Res.val _ = _
  congr 1
  rw [Bool.eq_iff_iff]
  simp only [Bool.not_eq_true', Bool.or_eq_false_iff, decide_eq_false_iff_not, decide_eq_true_eq, ge_iff_le, Nat.not_le]

theorem codec_crop {h : SpsHead} (ok : h.Ok) {w hh fm f : Nat} (hw : w ≤ 1055) (h2 : hh ≤ 1055) (hfm : fm < 2)
    (hf : f < 2) : Codec (parseCrop h w hh fm f)
    (fun c => encIf (f = 1) (encUE c.1 ++ encUE c.2.1 ++ encUE c.2.2.1 ++ encUE c.2.2.2))
    (fun c => if f = 1 then (c.1 ≤ 16880 ∧ c.2.1 ≤ 16880 ∧ c.2.2.1 ≤ 16880 ∧ c.2.2.2 ≤ 16880) ∧
        cropUnitX h * (c.1 + c.2.1) < 16 * (w + 1) ∧
        cropUnitY h fm * (c.2.2.1 + c.2.2.2) < 16 * ((2 - fm) * (hh + 1))
      else c = (0, 0, 0, 0)) := by
  unfold parseCrop
  have hlift : ∀ {l r t b : Nat}, l ≤ 16880 → r ≤ 16880 → t ≤ 16880 → b ≤ 16880 →
      Codec (do let ok ← lift (cropOk h w hh fm (l, r, t, b)); guard (ok = true); pure (l, r, t, b))
        (fun _ => []) (fun c => (cropUnitX h * (l + r) < 16 * (w + 1) ∧
          cropUnitY h fm * (t + b) < 16 * ((2 - fm) * (hh + 1))) ∧ c = (l, r, t, b)) := by
    intro l r t b hl hr ht hb
    rw [cropOk_eq ok hw h2 hfm hl hr ht hb]
    refine Codec.congr (Codec.guard (fun _ => Codec.ret (l, r, t, b))) ?_ ?_
    · intro a; simp only [decide_eq_true_eq]
    · intro a _; rfl
  refine Codec.congr (Codec.optF hf (fun _ =>
    rd (fun c : Nat × Nat × Nat × Nat => c.1) as l hl ← Codec.ueIn (by decide);
    rd (fun c : Nat × Nat × Nat × Nat => c.2.1) as r hr ← Codec.ueIn (by decide);
    rd (fun c : Nat × Nat × Nat × Nat => c.2.2.1) as t ht ← Codec.ueIn (by decide);
    rd (fun c : Nat × Nat × Nat × Nat => c.2.2.2) as b hb ← Codec.ueIn (by decide);
    hlift hl.2 hr.2 ht.2 hb.2)) ?_ ?_
  · rintro ⟨a, b, c, d⟩
    dsimp only
    split
    · constructor
      · rintro ⟨h1, h2, h3, h4, h5, -⟩; exact ⟨⟨h1.2, h2.2, h3.2, h4.2⟩, h5⟩
      · rintro ⟨⟨h1, h2, h3, h4⟩, h5⟩
        exact ⟨⟨Nat.zero_le _, h1⟩, ⟨Nat.zero_le _, h2⟩, ⟨Nat.zero_le _, h3⟩, ⟨Nat.zero_le _, h4⟩, h5, rfl⟩
    · rfl
  · rintro ⟨a, b, c, d⟩ _
    simp only [List.append_assoc, List.append_nil]

abbrev PocT := Nat × Nat × Int × Int × Nat × List Int

theorem codec_poc (t : Nat) : Codec (parsePoc t)
    (fun p => encIf (t = 0) (encUE p.1) ++ encIf (t = 1)
      (encU 1 p.2.1 ++ encSE p.2.2.1 ++ encSE p.2.2.2.1 ++ encUE p.2.2.2.2.1 ++ p.2.2.2.2.2.flatMap encSE))
    (fun p => (if t = 0 then p.1 ≤ 12 else p.1 = 0) ∧
      (if t = 1 then p.2.1 < 2 ∧ seRange p.2.2.1 ∧ seRange p.2.2.2.1 ∧ p.2.2.2.2.1 ≤ 255 ∧
          p.2.2.2.2.2.length = p.2.2.2.2.1 ∧ ∀ v ∈ p.2.2.2.2.2, seRange v
        else p.2.1 = 0 ∧ p.2.2.1 = 0 ∧ p.2.2.2.1 = 0 ∧ p.2.2.2.2.1 = 0 ∧ p.2.2.2.2.2 = [])) := by
  unfold parsePoc
  refine Codec.congr (Codec.ite (fun _ =>
      rd (fun p : PocT => p.1) ← Codec.ueIn (by decide); Codec.ret _)
    (fun _ => Codec.opt (fun _ =>
      rd (fun p : PocT => p.2.1) ← Codec.u';
      rd (fun p : PocT => p.2.2.1) ← Codec.se;
      rd (fun p : PocT => p.2.2.2.1) ← Codec.se;
      rd (fun p : PocT => p.2.2.2.2.1) as n hn ← Codec.ueIn (by decide);
      rd (fun p : PocT => p.2.2.2.2.2) ← Codec.se.rep n;
      Codec.ret _))) ?_ ?_
  · rintro ⟨a, b, c, d, e, f⟩
    dsimp only
    by_cases h0 : t = 0
    · subst h0
      simp only [if_true, Nat.zero_le, true_and, Prod.mk.injEq]
      rfl
    · by_cases h1 : t = 1
      · subst h1
        simp only [if_true, if_neg h0]
        constructor
        · rintro ⟨h1, h2, h3, h4, ⟨h5, h6⟩, h7⟩
          simp only [Prod.mk.injEq] at h7
          exact ⟨h7.1, h1, h2, h3, h4.2, h5, h6⟩
        · rintro ⟨h0, h1, h2, h3, h4, h5, h6⟩
          exact ⟨h1, h2, h3, ⟨Nat.zero_le _, h4⟩, ⟨h5, h6⟩, by rw [h0]⟩
      · simp only [if_neg h0, if_neg h1, Prod.mk.injEq]
  · rintro ⟨a, b, c, d, e, f⟩ _
    by_cases h0 : t = 0
    · subst h0; simp [encIf]
    · simp [encIf, h0]

theorem codec_optVui {f : Nat} (hf : f < 2) : Codec (parseOptVui f)
    (fun o => encIf (f = 1) (encOpt encVui o))
    (fun o => if f = 1 then ∃ v, o = some v ∧ v.Ok else o = none) := by
  unfold parseOptVui
  exact Codec.optF hf (fun _ => Codec.some codec_vui)

theorem codec_spsTail {h : SpsHead} (ok : h.Ok) : Codec (parseSpsTail h) encSpsTail (SpsTail.Ok h) := by
  unfold parseSpsTail
  refine Codec.congr (
    rd SpsTail.log2_max_frame_num_minus4 ← Codec.ueIn (by decide);
    rd SpsTail.pic_order_cnt_type as pt hpt ← Codec.ueIn (by decide);
    rd (fun t : SpsTail => (t.log2_max_pic_order_cnt_lsb_minus4, t.delta_pic_order_always_zero_flag,
      t.offset_for_non_ref_pic, t.offset_for_top_to_bottom_field, t.num_ref_frames_in_pic_order_cnt_cycle,
      t.offset_for_ref_frame)) ← codec_poc pt;
    rd SpsTail.max_num_ref_frames ← Codec.ueIn (by decide);
    rd SpsTail.gaps_in_frame_num_value_allowed_flag ← Codec.u';
    rd SpsTail.pic_width_in_mbs_minus1 as w hw ← Codec.ueIn (by decide);
    rd SpsTail.pic_height_in_map_units_minus1 as hh hhh ← Codec.ueIn (by decide);
    rd SpsTail.frame_mbs_only_flag as fm hfm ← Codec.u';
    rd SpsTail.mb_adaptive_frame_field_flag ← Codec.opt (fun _ => Codec.u');
    rd SpsTail.direct_8x8_inference_flag ← Codec.u';
    rd SpsTail.frame_cropping_flag as fc hfc ← Codec.u';
    rd (fun t : SpsTail => (t.frame_crop_left_offset, t.frame_crop_right_offset, t.frame_crop_top_offset,
      t.frame_crop_bottom_offset)) ← codec_crop ok hw.2 hhh.2 hfm hfc;
    rd SpsTail.vui_parameters_present_flag as fv hfv ← Codec.u';
    rd SpsTail.vui_parameters ← codec_optVui hfv;
    Codec.ret _) ?_ ?_
  · intro t
    constructor
    · rintro ⟨a1, a2, a3, a4, a5, a6, a7, a8, a9, a10, a11, a12, a13, a14, -⟩
      dsimp only at a3 a12
      by_cases hc : t.frame_cropping_flag = 1
      · rw [if_pos hc] at a12
        obtain ⟨⟨c1, c2, c3, c4⟩, c5, c6⟩ := a12
        exact ⟨a1.2, a2.2, a3.1, a3.2, a4.2, a5, a6.2, a7.2, a8, a9, a10, a11, fun h => absurd hc h, c1, c2, c3, c4,
          c5, c6, a13, a14⟩
      · rw [if_neg hc] at a12
        simp only [Prod.mk.injEq] at a12
        obtain ⟨c1, c2, c3, c4⟩ := a12
        refine ⟨a1.2, a2.2, a3.1, a3.2, a4.2, a5, a6.2, a7.2, a8, a9, a10, a11, fun _ => ⟨c1, c2, c3, c4⟩,
          by omega, by omega, by omega, by omega, ?_, ?_, a13, a14⟩
        · unfold cropX picWidth; rw [c1, c2, Nat.add_zero, Nat.mul_zero]; omega
        · unfold cropY frameHeight
          rw [c3, c4, Nat.add_zero, Nat.mul_zero]
          have : 1 ≤ (2 - t.frame_mbs_only_flag) * (t.pic_height_in_map_units_minus1 + 1) :=
            Nat.mul_pos (by omega) (by omega)
          omega
    · rintro ⟨a1, a2, a3, a3', a4, a5, a6, a7, a8, a9, a10, a11, n1, c1, c2, c3, c4, c5, c6, a13, a14⟩
      refine ⟨⟨Nat.zero_le _, a1⟩, ⟨Nat.zero_le _, a2⟩, ⟨a3, a3'⟩, ⟨Nat.zero_le _, a4⟩, a5, ⟨Nat.zero_le _, a6⟩,
        ⟨Nat.zero_le _, a7⟩, a8, a9, a10, a11, ?_, a13, a14, rfl⟩
      by_cases hc : t.frame_cropping_flag = 1
      · rw [if_pos hc]; exact ⟨⟨c1, c2, c3, c4⟩, c5, c6⟩
      · rw [if_neg hc]
        obtain ⟨d1, d2, d3, d4⟩ := n1 hc
        simp only [d1, d2, d3, d4]
  · intro t _
    unfold encSpsTail
    simp only [List.append_nil]
    simp only [List.append_assoc]
    rfl

theorem safe_lift_val {α : Type} (a : α) : Safe (lift (.val a)) := Safe.ret a

theorem safe_crop {h : SpsHead} (ok : h.Ok) {w hh fm f : Nat} (hw : w ≤ 1055) (h2 : hh ≤ 1055) (hfm : fm < 2) :
    Safe (parseCrop h w hh fm f) := by
  unfold parseCrop
  refine Safe.opt (fun _ => ?_)
  refine Safe.bindV (Codec.ueIn (by decide)) Safe.ueIn (fun l hl => ?_)
  refine Safe.bindV (Codec.ueIn (by decide)) Safe.ueIn (fun r hr => ?_)
  refine Safe.bindV (Codec.ueIn (by decide)) Safe.ueIn (fun t ht => ?_)
  refine Safe.bindV (Codec.ueIn (by decide)) Safe.ueIn (fun b hb => ?_)
  rw [cropOk_eq ok hw h2 hfm hl.2 hr.2 ht.2 hb.2]
  refine Safe.bind (safe_lift_val _) (fun _ => ?_)
  safe

theorem safe_poc (t : Nat) : Safe (parsePoc t) := by unfold parsePoc; safe
theorem safe_optVui (f : Nat) : Safe (parseOptVui f) := by unfold parseOptVui; safe
theorem safe_spsHead : Safe parseSpsHead := by unfold parseSpsHead parseChromaInfo; safe

theorem safe_spsTail {h : SpsHead} (ok : h.Ok) : Safe (parseSpsTail h) := by
  unfold parseSpsTail
  refine Safe.bind Safe.ueIn (fun _ => ?_)
  refine Safe.bind Safe.ueIn (fun _ => ?_)
  refine Safe.bind (safe_poc _) (fun _ => ?_)
  refine Safe.bind Safe.ueIn (fun _ => ?_)
  refine Safe.bind (Safe.u _) (fun _ => ?_)
  refine Safe.bindV (Codec.ueIn (by decide)) Safe.ueIn (fun w hw => ?_)
  refine Safe.bindV (Codec.ueIn (by decide)) Safe.ueIn (fun hh hhh => ?_)
  refine Safe.bindV Codec.u' (Safe.u _) (fun fm hfm => ?_)
  refine Safe.bind (by safe) (fun _ => ?_)
  refine Safe.bind (Safe.u _) (fun _ => ?_)
  refine Safe.bind (Safe.u _) (fun _ => ?_)
  refine Safe.bind (safe_crop ok hw.2 hhh.2 hfm) (fun _ => ?_)
  refine Safe.bind (Safe.u _) (fun _ => ?_)
  refine Safe.bind (safe_optVui _) (fun _ => ?_)
  exact Safe.pure _

theorem safe_spsData : Safe parseSpsData := by
  unfold parseSpsData
  refine Safe.bindV codec_spsHead safe_spsHead (fun h hok => ?_)
  refine Safe.bind (by safe) (fun _ => ?_)
  exact Safe.bind (safe_spsTail hok) (fun _ => Safe.pure _)
macro_rules | `(tactic| safe_step) => `(tactic| with_reducible exact safe_spsData)
macro_rules | `(tactic| safe_step) => `(tactic| with_reducible exact safe_trailing)
macro_rules | `(tactic| safe_step) => `(tactic| with_reducible exact safe_more)

theorem safe_sps : Safe parseSps := by unfold parseSps; safe
macro_rules | `(tactic| safe_step) => `(tactic| with_reducible exact safe_sps)

/-! ### The whole SPS -/

theorem spsListCount_eq {h : SpsHead} (hf : h.seq_scaling_matrix_present_flag = 1) :
    (if h.chroma_format_idc ≠ 3 then 8 else 12) = spsListCount h := by
  unfold spsListCount
  rw [if_pos hf]
  by_cases h3 : h.chroma_format_idc = 3
  · rw [if_neg (by omega), if_pos h3]
  · rw [if_pos h3, if_neg h3]

theorem spsData_complete (nd : Bool) {x : SpsSyn} (ok : x.Ok) (r : List Bool) (c : Nat) :
    runL nd parseSpsData ⟨encSps x ++ r, c⟩ = .ok x.state ⟨r, c⟩ := by
  unfold parseSpsData encSps
  rw [List.append_assoc, List.append_assoc, runL_bind, codec_spsHead.parse_append nd ok.head]
  simp only [Out.bind]
  rw [runL_bind]
  have hfl := ok.head.seq_scaling_matrix_present_flag
  have key : runL nd (opt (x.head.seq_scaling_matrix_present_flag ≠ 0) {}
      (scalingLists (if x.head.chroma_format_idc ≠ 3 then 8 else 12) 0 {}))
      ⟨encLists x.lists ++ (encSpsTail x.tail ++ r), c⟩ =
      .ok (keepLists 0 {} x.lists) ⟨encSpsTail x.tail ++ r, c⟩ := by
    unfold opt
    by_cases hf : x.head.seq_scaling_matrix_present_flag = 1
    · rw [if_pos (by omega), spsListCount_eq hf, ← ok.count]
      exact scalingLists_ok nd _ _ _ _ _ ⟨by decide, by decide⟩ ok.lists
    · rw [if_neg (by omega)]
      have h0 : x.lists = [] := by
        have := ok.count
        unfold spsListCount at this
        rw [if_neg hf] at this
        exact List.length_eq_zero_iff.mp this
      rw [h0]
      simp only [encLists, keepLists, List.nil_append, Prog.pure_eq, runL_ret]
  rw [key]
  simp only [Out.bind]
  rw [runL_bind, (codec_spsTail ok.head).parse_append nd ok.tail]
  simp only [Out.bind, Prog.pure_eq, runL_ret, SpsSyn.state]

theorem spsData_sound (nd : Bool) {l : List Bool} {c : Nat} {st : SpsData} {s' : LSt}
    (h : runL nd parseSpsData ⟨l, c⟩ = .ok st s') :
    (∃ x r, x.Ok ∧ st = x.state ∧ l = encSps x ++ r ∧ s' = ⟨r, c⟩) ∨ MalformedSps l := by
  unfold parseSpsData at h
  rw [runL_bind_ok] at h
  obtain ⟨hd, s1, h1, h⟩ := h
  obtain ⟨hok, r1, rfl, rfl⟩ := (codec_spsHead nd l c hd s1).mp h1
  rw [runL_bind_ok] at h
  obtain ⟨sc, s2, h2, h⟩ := h
  rw [runL_bind_ok] at h
  obtain ⟨t, s3, h3, h⟩ := h
  simp only [Prog.pure_eq, runL_ret, Out.ok.injEq] at h
  obtain ⟨rfl, rfl⟩ := h
  have hfl := hok.seq_scaling_matrix_present_flag
  unfold opt at h2
  by_cases hf : hd.seq_scaling_matrix_present_flag = 1
  · rw [if_pos (by omega), spsListCount_eq hf] at h2
    rcases scalingLists_only nd _ _ _ _ _ _ _ ⟨by decide, by decide⟩ h2 with ⟨ls, r2, e1, e2, e3, e4, e5⟩ | hm
    · subst e3
      subst e4
      subst e5
      obtain ⟨tok, r3, e6, e7⟩ := (codec_spsTail hok nd r2 c t s3).mp h3
      exact Or.inl ⟨⟨hd, ls, t⟩, r3, ⟨hok, e1, e2, tok⟩, by simp only [SpsSyn.state],
        by rw [e6]; simp only [encSps, List.append_assoc], e7⟩
    · exact Or.inr ⟨hd, r1, hok, rfl, hm⟩
  · rw [if_neg (by omega)] at h2
    simp only [Prog.pure_eq, runL_ret, Out.ok.injEq] at h2
    obtain ⟨rfl, rfl⟩ := h2
    obtain ⟨tok, r3, e6, e7⟩ := (codec_spsTail hok nd r1 c t s3).mp h3
    refine Or.inl ⟨⟨hd, [], t⟩, r3, ⟨hok, ?_, trivial, tok⟩, by simp only [SpsSyn.state, keepLists],
      by rw [e6]; simp only [encSps, encLists, List.append_assoc, List.nil_append], e7⟩
    unfold spsListCount; simp only [if_neg hf, List.length_nil]

theorem runL_lists_cnt (nd : Bool) : ∀ (n i : Nat) (s : Scal), ∀ st, match runL nd (scalingLists n i s) st with
    | .ok _ s' => s'.cnt = st.cnt
    | _ => True := by
  intro n
  induction n with
  | zero => intro i s st; rfl
  | succ n ih =>
    intro i s st
    cases h : runL nd (scalingLists (n + 1) i s) st with
    | null _ => trivial
    | bad _ => trivial
    | ok a s' =>
      show s'.cnt = st.cnt
      unfold scalingLists at h
      rw [runL_bind_ok] at h
      obtain ⟨f, s1, hf, h⟩ := h
      rw [runL_bind_ok] at h
      obtain ⟨sc, s2, hsc, h⟩ := h
      have h1 : s1.cnt = st.cnt := by
        obtain ⟨_, r, _, rfl⟩ := ((Codec.u (n := 1) (by omega) (by omega)) nd st.rem st.cnt f s1).mp hf
        rfl
      have h2 : s2.cnt = s1.cnt := by
        unfold opt at hsc
        by_cases hf0 : f ≠ 0
        · rw [if_pos hf0] at hsc
          have key : ∀ (i size : Nat) (sl : SLSt) (b : Bool × SLSt) (s2 : LSt),
              runL nd (scalingList i size sl) s1 = .ok b s2 → s2.cnt = s1.cnt := by
            intro i size sl b s2 hh
            rcases scalingList_total nd i size sl s1.rem s1.cnt with ⟨x, hx, r, hr⟩ | ⟨_, _, _, _, _, r, hr⟩
            · unfold scalingList at hh
              have := scalingLoop_ok nd i hx 0 sl r s1.cnt (by omega) (by omega)
              rw [← hr] at this
              rw [this] at hh
              simp only [Out.ok.injEq] at hh
              rw [← hh.2]
            · rw [hr] at hh
              simp only [Out.ok.injEq] at hh
              rw [← hh.2]
          unfold scalingCall at hsc
          by_cases hi : i < 6
          · rw [if_pos hi, runL_bind_ok] at hsc
            obtain ⟨b, s3, h3, h4⟩ := hsc
            simp only [Prog.pure_eq, runL_ret, Out.ok.injEq] at h4
            rw [← h4.2]; exact key _ _ _ _ _ h3
          · rw [if_neg hi, runL_bind_ok] at hsc
            obtain ⟨b, s3, h3, h4⟩ := hsc
            simp only [Prog.pure_eq, runL_ret, Out.ok.injEq] at h4
            rw [← h4.2]; exact key _ _ _ _ _ h3
        · rw [if_neg hf0] at hsc
          simp only [Prog.pure_eq, runL_ret, Out.ok.injEq] at hsc
          rw [← hsc.2]
      have h3 := ih (i + 1) sc s2
      rw [h] at h3
      simp only at h3
      omega

/-- Whatever the scaling lists, the other fields are in range. -/
theorem spsData_ranges (nd : Bool) {s : LSt} {st : SpsData} {s' : LSt} (h : runL nd parseSpsData s = .ok st s') :
    st.toSpsHead.Ok ∧ st.toSpsTail.Ok st.toSpsHead ∧ s'.cnt = s.cnt := by
  unfold parseSpsData at h
  rw [runL_bind_ok] at h
  obtain ⟨hd, s1, h1, h⟩ := h
  obtain ⟨hok, r1, _, rfl⟩ := (codec_spsHead nd s.rem s.cnt hd s1).mp h1
  rw [runL_bind_ok] at h
  obtain ⟨sc, s2, h2, h⟩ := h
  rw [runL_bind_ok] at h
  obtain ⟨t, s3, h3, h⟩ := h
  simp only [Prog.pure_eq, runL_ret, Out.ok.injEq] at h
  obtain ⟨rfl, rfl⟩ := h
  obtain ⟨tok, r3, _, rfl⟩ := (codec_spsTail hok nd s2.rem s2.cnt t s3).mp h3
  refine ⟨hok, tok, ?_⟩
  unfold opt at h2
  by_cases hf : hd.seq_scaling_matrix_present_flag ≠ 0
  · rw [if_pos hf] at h2
    have := runL_lists_cnt nd (if hd.chroma_format_idc ≠ 3 then 8 else 12) 0 {} ⟨r1, s.cnt⟩
    rw [h2] at this
    exact this
  · rw [if_neg hf] at h2
    simp only [Prog.pure_eq, runL_ret, Out.ok.injEq] at h2
    rw [← h2.2]

/-- `ParseSps` returns what `ParseSpsData` returns. -/
theorem sps_iff (nd : Bool) (s : LSt) (d : SpsData) :
    (∃ s', runL nd parseSps s = .ok d s') ↔ ∃ s', runL nd parseSpsData s = .ok d s' := by
  unfold parseSps
  constructor
  · rintro ⟨s', h⟩
    rw [runL_bind_ok] at h
    obtain ⟨d', s1, h1, h⟩ := h
    rw [runL_bind_ok] at h
    obtain ⟨_, s2, _, h⟩ := h
    simp only [Prog.pure_eq, runL_ret, Out.ok.injEq] at h
    rw [← h.1]; exact ⟨s1, h1⟩
  · rintro ⟨s1, h1⟩
    rw [runL_bind, h1]
    simp only [Out.bind]
    rw [runL_bind, runL_attempt]
    have := safe_trailing nd s1
    cases hr : runL nd rbspTrailingBits s1 with
    | ok a s2 => exact ⟨s2, rfl⟩
    | null s2 => exact ⟨s2, rfl⟩
    | bad e => exact absurd hr (this e)

theorem getResolution_eq {s : SpsData} (hok : s.toSpsHead.Ok) (tok : s.toSpsTail.Ok s.toSpsHead) :
    s.getResolution = .val (some (((picWidth s.toSpsTail - cropX s.toSpsHead s.toSpsTail : Nat) : Int),
      ((frameHeight s.toSpsTail - cropY s.toSpsHead s.toSpsTail : Nat) : Int))) := by
  have hw := tok.width; have hh := tok.height; have hf := tok.frame_mbs_only_flag
  have c1 := tok.crop_left; have c2 := tok.crop_right; have c3 := tok.crop_top; have c4 := tok.crop_bottom
  have hx := tok.cropX; have hy := tok.cropY
  have e1 := cropUnitX_le s.toSpsHead
  have e2 := cropUnitY_le s.toSpsHead s.frame_mbs_only_flag
  unfold cropX picWidth at *
  unfold cropY frameHeight at *
  rw [Nat.mul_add] at hx hy
  have m1 : cropUnitX s.toSpsHead * s.frame_crop_left_offset ≤ 2 * s.frame_crop_left_offset :=
    Nat.mul_le_mul_right _ e1
  have m2 : cropUnitX s.toSpsHead * s.frame_crop_right_offset ≤ 2 * s.frame_crop_right_offset :=
    Nat.mul_le_mul_right _ e1
  have m3 : cropUnitY s.toSpsHead s.frame_mbs_only_flag * s.frame_crop_top_offset ≤ 4 * s.frame_crop_top_offset :=
    Nat.mul_le_mul_right _ e2
  have m4 : cropUnitY s.toSpsHead s.frame_mbs_only_flag * s.frame_crop_bottom_offset ≤
    4 * s.frame_crop_bottom_offset := Nat.mul_le_mul_right _ e2
  have m5 : (2 - s.frame_mbs_only_flag) * (s.pic_height_in_map_units_minus1 + 1) ≤
    2 * (s.pic_height_in_map_units_minus1 + 1) := Nat.mul_le_mul_right _ (by omega)
  have k1 : (2 : Int) - (s.frame_mbs_only_flag : Int) = ((2 - s.frame_mbs_only_flag : Nat) : Int) := by omega
  unfold SpsData.getResolution
  rw [getCropUnitX_eq hok, getCropUnitY_eq hok hf]
  rw [Res.val_bind]
  rw [add32_eq (by omega), add32_eq (by omega), mul32_eq (by omega), toI32_eq (by omega : s.frame_mbs_only_flag < _),
    toI32_eq (by omega : s.pic_height_in_map_units_minus1 + 1 < _), toI32_eq (by omega : s.frame_crop_left_offset < _),
    toI32_eq (by omega : s.frame_crop_right_offset < _), toI32_eq (by omega : s.frame_crop_top_offset < _),
    toI32_eq (by omega : s.frame_crop_bottom_offset < _), toI32_eq (by omega), k1, sint_eq (by omega) (by omega)]
  rw [Res.val_bind, ← Int.natCast_mul, ← Int.natCast_mul, ← Int.natCast_mul, ← Int.natCast_mul, ← Int.natCast_mul]
  iterate 10 rw [sint_eq (by omega) (by omega), Res.val_bind]
  rw [if_neg (by omega), Nat.mul_add (cropUnitX _), Nat.mul_add (cropUnitY _ _)]
  show Res.val _ = Res.val _
  congr 3 <;> omega

end H264
