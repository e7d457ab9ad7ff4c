import Verif.Spec.Provenance
import Verif.SizeLemmas
import Verif.WorkUnits
import Verif.ThreadLemmas
import Verif.Props.Reach
import Verif.Props.Modes

/-
C74: the parser state holds nothing that was not parsed.  C75: how much it can hold, whatever was parsed.
-/

namespace H264.Props
open H264 H264.Spec Prog

/-! ### What each payload preserves, every reachable state satisfies -/

/-- The bits that remain of a reader. -/
def OnBuf (l : LSt) : Prop := ∃ b : Buf, b.WF ∧ b.rem = l.rem

theorem OnBuf.next {α : Type} {nd : Bool} {p : Prog α} {l t : LSt} {a : α} (h : OnBuf l) (e : runL nd p l = .ok a t) : OnBuf t := by
  obtain ⟨b, hb, hr⟩ := h
  have h1 := run_rem nd p hb l.cnt
  generalize run nd p ⟨b, l.cnt⟩ = r at h1
  have e2 : runL nd p ⟨b.rem, l.cnt⟩ = .ok a t := by rw [hr]; exact e
  rw [e2] at h1
  cases r with
  | ok a s => exact ⟨s.buf, h1.1, by have := h1.2.2; cases this; rfl⟩
  | null s => have := h1.2.2; cases this
  | bad e => cases h1

/-- Parsing a payload preserves `P`. -/
def Carried (P : Store → Prop) : Prop :=
  ∀ (nd : Bool) (σ : Store) (h : NalHeader) (l : LSt) (p : Payload) (σ' : Store) (t : LSt), OnBuf l → P σ →
    runL nd (parsePayload σ h) l = .ok (p, σ') t → P σ'

section
variable {P : Store → Prop} (hP : Carried P) {nd : Bool} {σ σ' : Store}
include hP

theorem single_carried {l t : LSt} {x : RtpSingle} (hl : OnBuf l) (hσ : P σ) (h : runL nd (parseRtpSingle σ) l = .ok (x, σ') t) : P σ' := by
  unfold parseRtpSingle at h
  simp only [runL_bind_ok] at h
  obtain ⟨hd, s1, h1, ⟨p, σ1⟩, s2, h2, h3⟩ := h
  simp only [Prog.pure_eq, runL_ret, Out.ok.injEq, Prod.mk.injEq] at h3
  obtain ⟨⟨rfl, rfl⟩, rfl⟩ := h3
  exact hP _ _ _ _ _ _ _ (hl.next h1) hσ h2

theorem fuA_carried {ref : Nat} {l t : LSt} {x : RtpFuA} (hl : OnBuf l) (hσ : P σ) (h : runL nd (parseRtpFuA σ ref) l = .ok (x, σ') t) :
    P σ' := by
  unfold parseRtpFuA at h
  simp only [runL_bind_ok] at h
  obtain ⟨hd, s1, h1, sb, s2, h2, eb, s3, h3, rb, s4, h4, ty, s5, h5, h⟩ := h
  by_cases hs : sb = 0
  · rw [if_pos hs] at h
    simp only [Prog.pure_eq, runL_ret, Out.ok.injEq, Prod.mk.injEq] at h
    obtain ⟨⟨rfl, rfl⟩, rfl⟩ := h
    exact hσ
  · rw [if_neg hs] at h
    simp only [runL_bind_ok] at h
    obtain ⟨⟨p, σ1⟩, s6, h6, h⟩ := h
    simp only [Prog.pure_eq, runL_ret, Out.ok.injEq, Prod.mk.injEq] at h
    obtain ⟨⟨rfl, rfl⟩, rfl⟩ := h
    unfold parsePayloadRT at h6
    exact hP _ _ _ _ _ _ _ (((((hl.next h1).next h2).next h3).next h4).next h5) hσ h6

theorem stapAUnit_carried {l t : LSt} {x : Nat × NalHeader × Payload} (hl : OnBuf l) (hσ : P σ)
    (h : runL nd (parseStapAUnit σ) l = .ok (x, σ') t) : P σ' := by
  unfold parseStapAUnit at h
  simp only [runL_bind_ok] at h
  obtain ⟨n, s1, h1, r, s2, h2, g, s3, h3, hd, s4, h4, ⟨p, σ1⟩, s5, h5, h⟩ := h
  simp only [Prog.pure_eq, runL_ret, Out.ok.injEq, Prod.mk.injEq] at h
  obtain ⟨⟨rfl, rfl⟩, rfl⟩ := h
  exact hP _ _ _ _ _ _ _ ((((hl.next h1).next h2).next h3).next h4) hσ h5

omit hP in
theorem runStore_carried {α : Type} {p : Prog (α × Store)} {s s' : St} {x : Option α} (hb : s.buf.WF) (hσ : P σ)
    (hp : ∀ l a τ t, OnBuf l → runL nd p l = .ok (a, τ) t → P τ) (h : runStore nd σ p s = .val (x, σ', s')) : P σ' ∧ s'.buf.WF := by
  obtain ⟨b, c⟩ := s
  have h1 := run_rem nd p hb c
  unfold runStore at h
  generalize run nd p ⟨b, c⟩ = r at *
  cases r with
  | ok a t =>
    obtain ⟨a, τ⟩ := a
    simp only [Res.val.injEq, Prod.mk.injEq] at h
    obtain ⟨rfl, rfl, rfl⟩ := h
    exact ⟨hp _ _ _ _ ⟨b, hb, rfl⟩ h1.2.2, h1.1⟩
  | null t =>
    simp only [Res.val.injEq, Prod.mk.injEq] at h
    obtain ⟨rfl, rfl, rfl⟩ := h
    exact ⟨hσ, h1.1⟩
  | bad e => cases h

theorem stapALoop_carried : ∀ (f : Nat) {σ σ' : Store} {s s' : St} {xs : Option (List (Nat × NalHeader × Payload))},
    s.buf.WF → P σ → stapALoop nd f σ s = .val (xs, σ', s') → P σ' := by
  intro f
  induction f with
  | zero => intro σ σ' s s' xs _ _ h; cases h
  | succ f ih =>
    intro σ σ' s s' xs hb hσ h
    unfold stapALoop at h
    split at h
    · obtain ⟨⟨x, σ1, s1⟩, h1, h⟩ := val_of_bind h
      obtain ⟨hσ1, hw⟩ := runStore_carried hb hσ (fun l a τ t hl => stapAUnit_carried hP hl hσ) h1
      cases x with
      | none => cases h; exact hσ1
      | some x =>
        dsimp only at h
        obtain ⟨⟨ys, σ2, s2⟩, h2, h⟩ := val_of_bind h
        have := ih hw hσ1 h2
        cases ys with
        | none => cases h; exact this
        | some ys => cases h; exact this
    · cases h
      exact hσ

omit hP in
theorem header_wf {s s' : St} {x : Option NalHeader} (hb : s.buf.WF) (h : (run nd parseNalHeader s).res = .val (x, s')) : s'.buf.WF := by
  obtain ⟨_, _, h1, h2⟩ := safe_good nd safe_nalHeader hb
  rw [h1] at h
  cases h
  exact h2

theorem stapA_carried {s s' : St} {x : Option RtpStapA} (hb : s.buf.WF) (hσ : P σ) (h : parseRtpStapA nd σ s = .val (x, σ', s')) : P σ' := by
  unfold parseRtpStapA at h
  obtain ⟨⟨hd, s1⟩, h1, h⟩ := val_of_bind h
  have hw := header_wf hb h1
  cases hd with
  | none => cases h; exact hσ
  | some hd =>
    dsimp only at h
    obtain ⟨⟨ys, σ2, s2⟩, h2, h⟩ := val_of_bind h
    have := stapALoop_carried hP _ hw hσ h2
    cases ys with
    | none => cases h; exact this
    | some ys => cases h; exact this

theorem rtp_carried {s s' : St} {x : Option Rtp} (hb : s.buf.WF) (hσ : P σ) (h : parseRtp nd σ s = .val (x, σ', s')) : P σ' := by
  unfold parseRtp at h
  obtain ⟨⟨hd, s1⟩, h1, h⟩ := val_of_bind h
  have hw := seek0_wf (header_wf hb h1)
  cases hd with
  | none => cases h; exact hσ
  | some hd =>
    dsimp only at h hw
    split at h
    · obtain ⟨⟨y, σ2, s2⟩, h2, h⟩ := val_of_bind h
      cases h
      exact (runStore_carried hw hσ (fun l a τ t hl => single_carried hP hl hσ) h2).1
    split at h
    · obtain ⟨⟨y, σ2, s2⟩, h2, h⟩ := val_of_bind h
      cases h
      exact stapA_carried hP hw hσ h2
    split at h
    · obtain ⟨⟨y, σ2, s2⟩, h2, h⟩ := val_of_bind h
      cases h
      exact (runStore_carried hw hσ (fun l a τ t hl => fuA_carried hP hl hσ) h2).1
    · cases h; exact hσ

theorem nalUnitBuf_carried {opts : ParsingOptions} {s s' : St} {n : Option NalUnit} (hb : s.buf.WF) (hσ : P σ)
    (h : parseNalUnitBuf nd opts σ s = .val (n, σ', s')) : P σ' := by
  unfold parseNalUnitBuf at h
  obtain ⟨⟨ck, b⟩, h1, h⟩ := val_of_bind h
  have hbb : b = s.buf := by
    unfold unitChecksum at h1
    split at h1
    · obtain ⟨y, h2, h1⟩ := val_of_bind h1
      obtain ⟨ck', h3⟩ := getNaluChecksum_total s.buf hb
      rw [h3] at h2
      cases h2
      cases h1
      rfl
    · cases h1; rfl
  subst hbb
  dsimp only at h
  obtain ⟨⟨hd, s1⟩, h2, h⟩ := val_of_bind h
  have hw := header_wf (s := ⟨s.buf, s.cnt⟩) hb h2
  cases hd with
  | none => cases h; exact hσ
  | some hd =>
    dsimp only at h
    obtain ⟨⟨p, s2⟩, h3, h⟩ := val_of_bind h
    cases p with
    | none => cases h; exact hσ
    | some p =>
      obtain ⟨p, σ2⟩ := p
      cases h
      have h4 := run_rem nd (parsePayload σ hd) hw s1.cnt
      generalize run nd (parsePayload σ hd) ⟨s1.buf, s1.cnt⟩ = r at *
      cases r with
      | ok a s3 =>
        cases h3
        exact hP _ _ _ _ _ _ _ ⟨s1.buf, hw, rfl⟩ hσ h4.2.2
      | null s3 => cases h3
      | bad e => cases h3

theorem unescaped_carried {opts : ParsingOptions} {bytes : List UInt8} {c c' : Nat} {n : Option NalUnit} (hl : bytes.length < 2 ^ 61)
    (hσ : P σ) (h : parseNalUnitUnescaped nd opts bytes σ c = .val (n, σ', c')) : P σ' := by
  unfold parseNalUnitUnescaped at h
  obtain ⟨b, h1, h⟩ := val_of_bind h
  have hb : b = Buf.start bytes := by
    by_cases hf : Fits nd bytes.length
    · rw [Buf.new_eq hf] at h1; cases h1; rfl
    · rw [Buf.new_bad hl hf] at h1; cases h1
  subst hb
  obtain ⟨⟨n1, σ1, s1⟩, h2, h⟩ := val_of_bind h
  cases h
  exact nalUnitBuf_carried hP (s := ⟨Buf.start bytes, c⟩) (Buf.start_wf hl) hσ h2

theorem nalUnit_carried {opts : ParsingOptions} {data : List UInt8} {off len c c' : Nat} {n : Option NalUnit} (hl : data.length < 2 ^ 61)
    (hσ : P σ) (h : parseNalUnit nd opts data off len σ c = .val (n, σ', c')) : P σ' := by
  unfold parseNalUnit at h
  obtain ⟨bytes, h1, h⟩ := val_of_bind h
  have h2 := unescape_val hl h1
  refine unescaped_carried hP (Nat.lt_of_le_of_lt h2.1 ?_) hσ h
  by_cases h0 : 0 < len
  · have := h2.2 h0
    omega
  · omega

theorem inOrder_carried {opts : ParsingOptions} {us : List (Nat × List UInt8)} {c c' : Nat} {ns : List NalUnit}
    (hu : ∀ u ∈ us, u.2.length < 2 ^ 61) (h : InOrder (fun b => parseNalUnit nd opts b 0 b.length) us σ c ns σ' c') (hσ : P σ) : P σ' := by
  induction h with
  | nil σ c => exact hσ
  | skip h1 h2 ih => exact ih (fun u hu' => hu u (by simp [hu'])) hσ
  | @unit off bytes _ _ _ _ _ _ _ n ns h1 h2 ih =>
    exact ih (fun u hu' => hu u (by simp [hu'])) (nalUnit_carried hP (hu (off, bytes) (by simp)) hσ h1)

theorem lengthLoop_carried {opts : ParsingOptions} {data : List UInt8} (hl : data.length < 2 ^ 61) {k : Nat} :
    ∀ f i σ c ns σ' c', P σ → parseLengthLoop nd opts data k f i σ c = .val (ns, σ', c') → P σ' := by
  intro f
  induction f with
  | zero =>
    intro i σ c ns σ' c' hσ h
    rw [parseLengthLoop] at h
    split at h
    · cases h
    · cases h; exact hσ
  | succ f ih =>
    intro i σ c ns σ' c' hσ h
    rw [parseLengthLoop] at h
    split at h
    · obtain ⟨x, hn, h⟩ := val_of_bind h
      cases x with
      | none => cases h; exact hσ
      | some x =>
        obtain ⟨j, n⟩ := x
        dsimp only at h
        obtain ⟨⟨r, σ1, c1⟩, h1, h⟩ := val_of_bind h
        dsimp only at h
        obtain ⟨⟨ns1, σ2, c2⟩, h2, h⟩ := val_of_bind h
        have h3 := ih _ _ _ _ _ _ (nalUnit_carried hP hl hσ h1) h2
        cases r with
        | none => cases h; exact h3
        | some r => cases h; exact h3
    · cases h; exact hσ

omit hP in
theorem onData_carried {α : Type} {f : St → Res (α × Store × St)} {data : List UInt8} {off len : Nat} (hl : data.length < 2 ^ 61)
    (hb : off + len ≤ data.length) (hf : ∀ s x τ s', s.buf.WF → f s = .val (x, τ, s') → P τ) {c c' : Nat} {x : α}
    (h : onData nd f data off len c = .val (x, σ', c')) : P σ' := by
  rw [onData_eq hb hl] at h
  split at h
  · rename_i hfit
    obtain ⟨⟨y, σ1, s1⟩, h1, h⟩ := val_of_bind h
    cases h
    exact hf _ _ _ _ (Buf.start_wf hfit.lt) h1
  · cases h

end

section
variable {P : Store → Prop} (hP : Carried P) {nd : Bool} {σ σ' : Store}
include hP

theorem payload_carried {h : NalHeader} {s s' : St} {p : Option Payload} (hb : s.buf.WF) (hσ : P σ)
    (he : runStore nd σ (parsePayload σ h) s = .val (p, σ', s')) : P σ' :=
  (runStore_carried hb hσ (fun l a τ t hl e => hP nd σ h l a τ t hl hσ e) he).1
theorem payloadRT_carried {ref type : Nat} {s s' : St} {p : Option Payload} (hb : s.buf.WF) (hσ : P σ)
    (he : runStore nd σ (parsePayloadRT σ ref type) s = .val (p, σ', s')) : P σ' := by
  unfold parsePayloadRT at he
  exact payload_carried hP hb hσ he
theorem singleStore_carried {s s' : St} {x : Option RtpSingle} (hb : s.buf.WF) (hσ : P σ)
    (he : runStore nd σ (parseRtpSingle σ) s = .val (x, σ', s')) : P σ' :=
  (runStore_carried hb hσ (fun _ _ _ _ hl e => single_carried hP hl hσ e) he).1
theorem fuAStore_carried {ref : Nat} {s s' : St} {x : Option RtpFuA} (hb : s.buf.WF) (hσ : P σ)
    (he : runStore nd σ (parseRtpFuA σ ref) s = .val (x, σ', s')) : P σ' :=
  (runStore_carried hb hσ (fun _ _ _ _ hl e => fuA_carried hP hl hσ e) he).1
theorem payloadData_carried {h : NalHeader} {data : List UInt8} {off len c c' : Nat} {p : Option Payload} (hl : data.length < 2 ^ 61)
    (hb : off + len ≤ data.length) (hσ : P σ) (he : parsePayloadData nd data off len h σ c = .val (p, σ', c')) : P σ' := by
  unfold parsePayloadData at he
  have hf : ∀ (s : St) (x : Option Payload) (τ : Store) (s' : St), s.buf.WF → runStore nd σ (parsePayload σ h) s = .val (x, τ, s') → P τ :=
    fun s x τ s' hw e => payload_carried hP hw hσ e
  exact onData_carried (f := runStore nd σ (parsePayload σ h)) hl hb hf he
theorem rtpData_carried {data : List UInt8} {off len c c' : Nat} {x : Option Rtp} (hl : data.length < 2 ^ 61)
    (hb : off + len ≤ data.length) (hσ : P σ) (he : parseRtpData nd data off len σ c = .val (x, σ', c')) : P σ' := by
  unfold parseRtpData at he
  have hf : ∀ (s : St) (x : Option Rtp) (τ : Store) (s' : St), s.buf.WF → parseRtp nd σ s = .val (x, τ, s') → P τ :=
    fun s x τ s' hw e => rtp_carried hP hw hσ e
  exact onData_carried (f := parseRtp nd σ) hl hb hf he
theorem singleData_carried {data : List UInt8} {off len c c' : Nat} {x : Option RtpSingle} (hl : data.length < 2 ^ 61)
    (hb : off + len ≤ data.length) (hσ : P σ) (he : parseRtpSingleData nd data off len σ c = .val (x, σ', c')) : P σ' := by
  unfold parseRtpSingleData at he
  have hf : ∀ (s : St) (x : Option RtpSingle) (τ : Store) (s' : St), s.buf.WF → runStore nd σ (parseRtpSingle σ) s = .val (x, τ, s') → P τ :=
    fun s x τ s' hw e => singleStore_carried hP hw hσ e
  exact onData_carried (f := runStore nd σ (parseRtpSingle σ)) hl hb hf he
theorem stapAData_carried {data : List UInt8} {off len c c' : Nat} {x : Option RtpStapA} (hl : data.length < 2 ^ 61)
    (hb : off + len ≤ data.length) (hσ : P σ) (he : parseRtpStapAData nd data off len σ c = .val (x, σ', c')) : P σ' := by
  unfold parseRtpStapAData at he
  have hf : ∀ (s : St) (x : Option RtpStapA) (τ : Store) (s' : St), s.buf.WF → parseRtpStapA nd σ s = .val (x, τ, s') → P τ :=
    fun s x τ s' hw e => stapA_carried hP hw hσ e
  exact onData_carried (f := parseRtpStapA nd σ) hl hb hf he
theorem fuAData_carried {data : List UInt8} {off len ref c c' : Nat} {x : Option RtpFuA} (hl : data.length < 2 ^ 61)
    (hb : off + len ≤ data.length) (hσ : P σ) (he : parseRtpFuAData nd data off len ref σ c = .val (x, σ', c')) : P σ' := by
  unfold parseRtpFuAData at he
  have hf : ∀ (s : St) (x : Option RtpFuA) (τ : Store) (s' : St), s.buf.WF → runStore nd σ (parseRtpFuA σ ref) s = .val (x, τ, s') → P τ :=
    fun s x τ s' hw e => fuAStore_carried hP hw hσ e
  exact onData_carried (f := runStore nd σ (parseRtpFuA σ ref)) hl hb hf he
theorem bitstream_carried {opts : ParsingOptions} {data : List UInt8} {c c' : Nat} {bs : Bitstream} (hl : data.length < 2 ^ 61) (hσ : P σ)
    (he : parseBitstream nd opts data σ c = .val (bs, σ', c')) : P σ' :=
  inOrder_carried hP (slice_lt hl _) ((C18_in_order nd opts data hl σ c bs σ' c').mp he).2 hσ
theorem lengthStream_carried {opts : ParsingOptions} {data : List UInt8} {k c c' : Nat} {bs : Bitstream} (hl : data.length < 2 ^ 61)
    (hσ : P σ) (he : parseBitstreamNALULength nd opts data k σ c = .val (bs, σ', c')) : P σ' := by
  unfold parseBitstreamNALULength at he
  obtain ⟨⟨ns, σ1, c1⟩, h1, he⟩ := val_of_bind he
  simp only [Res.pure_eq, Res.val.injEq, Prod.mk.injEq] at he
  rw [← he.2.1]
  exact lengthLoop_carried hP hl _ _ _ _ _ _ _ hσ h1

end

/-- What holds of the empty state, and is preserved whenever a payload is parsed, holds of every reachable state. -/
theorem reachable_of {P : Store → Prop} (hP : Carried P) (h0 : P {}) {σ : Store} (h : Reachable σ) : P σ := by
  induction h with
  | empty => exact h0
  | nalUnitBuf _ hb he ih => exact nalUnitBuf_carried hP hb ih he
  | nalUnitUnescaped _ hl he ih => exact unescaped_carried hP hl ih he
  | nalUnit _ hl _ he ih => exact nalUnit_carried hP hl ih he
  | payload _ hb he ih => exact payload_carried hP hb ih he
  | payloadRT _ hb he ih => exact payloadRT_carried hP hb ih he
  | payloadData _ hl hb he ih => exact payloadData_carried hP hl hb ih he
  | bitstream _ hl he ih => exact bitstream_carried hP hl ih he
  | bitstreamNALULength _ hl he ih => exact lengthStream_carried hP hl ih he
  | rtp _ hb he ih => exact rtp_carried hP hb ih he
  | rtpSingle _ hb he ih => exact singleStore_carried hP hb ih he
  | rtpStapA _ hb he ih => exact stapA_carried hP hb ih he
  | rtpFuA _ hb he ih => exact fuAStore_carried hP hb ih he
  | rtpData _ hl hb he ih => exact rtpData_carried hP hl hb ih he
  | rtpSingleData _ hl hb he ih => exact singleData_carried hP hl hb ih he
  | rtpStapAData _ hl hb he ih => exact stapAData_carried hP hl hb ih he
  | rtpFuAData _ hl hb he ih => exact fuAData_carried hP hl hb ih he

/-! ### C74 -/

theorem parsedBy_of {α : Type} {nd : Bool} {p : Prog α} {l t : LSt} {a : α} (h : OnBuf l) (e : runL nd p l = .ok a t) : ParsedBy p a := by
  obtain ⟨b, hb, hr⟩ := h
  have h1 := run_rem nd p hb l.cnt
  have e2 : runL nd p ⟨b.rem, l.cnt⟩ = .ok a t := by rw [hr]; exact e
  rw [e2] at h1
  obtain ⟨bytes, x, y⟩ := b
  refine ⟨nd, bytes, x, y, l.cnt, ?_⟩
  obtain ⟨h2, h3, h4⟩ := hb
  generalize run nd p ⟨⟨bytes, x, y⟩, l.cnt⟩ = r at h1
  cases r with
  | ok a' s =>
    have := h1.2.2
    simp only [Out.ok.injEq] at this
    obtain ⟨rfl, _⟩ := this
    refine ⟨s, h2, h3, ?_, rfl⟩
    simp only [Buf.pos] at h4
    omega
  | null s => have := h1.2.2; cases this
  | bad e => cases h1

theorem allParsed_carried : Carried AllParsed := by
  intro nd σ h l p σ' t hl hσ he
  rw [runL_payload] at he
  revert he
  split
  · cases runL nd (parseSliceLayer σ h.nal_ref_idc h.nal_unit_type) l <;> simp <;> rintro _ rfl _ <;> exact hσ
  split
  · cases h7 : runL nd parseSps l with
    | ok a s1 =>
      simp only [Out.ok.injEq, Prod.mk.injEq]
      rintro ⟨⟨_, rfl⟩, _⟩
      refine ⟨?_, hσ.pps, hσ.subset_sps⟩
      intro k x hx
      simp only [Store.addSps, upd] at hx
      split at hx
      · cases hx; exact ⟨parsedBy_of hl h7, by symm; assumption⟩
      · exact hσ.sps k x hx
    | null s1 => simp; rintro _ rfl _; exact hσ
    | bad e => simp
  split
  · cases h7 : runL nd (parsePps 1) l with
    | ok a s1 =>
      simp only [Out.ok.injEq, Prod.mk.injEq]
      rintro ⟨⟨_, rfl⟩, _⟩
      refine ⟨hσ.sps, ?_, hσ.subset_sps⟩
      intro k x hx
      simp only [Store.addPps, upd] at hx
      split at hx
      · cases hx; exact ⟨parsedBy_of hl h7, by symm; assumption⟩
      · exact hσ.pps k x hx
    | null s1 => simp; rintro _ rfl _; exact hσ
    | bad e => simp
  split
  · cases runL nd (parsePrefixPayload h) l <;> simp <;> rintro _ rfl _ <;> exact hσ
  split
  · cases h7 : runL nd parseSubsetSps l with
    | ok a s1 =>
      simp only [Out.ok.injEq, Prod.mk.injEq]
      rintro ⟨⟨_, rfl⟩, _⟩
      refine ⟨hσ.sps, hσ.pps, ?_⟩
      intro k x hx
      simp only [Store.addSubsetSps, upd] at hx
      split at hx
      · cases hx; exact ⟨parsedBy_of hl h7, by symm; assumption⟩
      · exact hσ.subset_sps k x hx
    | null s1 => simp; rintro _ rfl _; exact hσ
    | bad e => simp
  split
  · cases runL nd (parseSliceLayerExt σ h) l <;> simp <;> rintro _ rfl _ <;> exact hσ
  simp; rintro _ rfl _; exact hσ

/-- C74: every parameter set in a reachable parser state was returned by its parser for some reader. -/
theorem C74_parsed {σ : Store} (h : Reachable σ) : AllParsed σ :=
  reachable_of allParsed_carried ⟨by simp, by simp, by simp⟩ h

/-! ### C75 -/

theorem parsedBy_runL {α : Type} {p : Prog α} {a : α} (h : ParsedBy p a) : ∃ nd l t, runL nd p l = .ok a t := by
  obtain ⟨nd, bytes, x, y, c, s, h1, h2, h3, e⟩ := h
  have := run_rem nd p (b := ⟨bytes, x, y⟩) ⟨h1, h2, by simp only [Buf.pos]; omega⟩ c
  rw [e] at this
  exact ⟨nd, _, _, this.2.2⟩

theorem scal_bound {nd : Bool} {n : Nat} (hn : n ≤ 12) {c : Prop} [Decidable c] {l t : LSt} {s : Scal}
    (h : runL nd (Prog.opt c {} (scalingLists n 0 {})) l = .ok s t) : scalEntries s ≤ 98 := by
  unfold Prog.opt at h
  split at h
  · obtain ⟨⟨h1, h2, h3⟩, h4, h5⟩ := scalingLists_small nd n 0 {} l t s (by omega) ⟨by simp, by simp, by simp⟩ h
    simp only [scalEntries]
    have : ([] : List Nat).length = 0 := rfl
    rw [this] at h4
    omega
  · simp only [Prog.pure_eq, runL_ret, Out.ok.injEq] at h
    rw [← h.1]
    simp [scalEntries]

theorem hrd_bound {o : Option Hrd} {c : Prop} [Decidable c] (h : if c then ∃ x, o = some x ∧ x.Ok else o = none) : pointee hrdEntries o ≤ 96 := by
  split at h
  · obtain ⟨x, rfl, hx⟩ := h
    have := hx.cpb_cnt_minus1
    have := hx.bit_rate_len
    have := hx.cpb_size_len
    have := hx.cbr_len
    simp only [pointee, hrdEntries]
    omega
  · subst h; simp [pointee]

theorem spsData_bound {nd : Bool} {l t : LSt} {s : SpsData} (h : runL nd parseSpsData l = .ok s t) : spsEntries s ≤ 545 := by
  obtain ⟨h1, h2, _⟩ := spsData_ranges nd h
  have hs : scalEntries s.toScal ≤ 98 := by
    unfold parseSpsData at h
    simp only [runL_bind_ok] at h
    obtain ⟨hd, s1, _, sc, s2, h3, tl, s3, _, h4⟩ := h
    have h5 := scal_bound (by split <;> omega) h3
    simp only [Prog.pure_eq, runL_ret, Out.ok.injEq] at h4
    rw [← h4.1]
    exact h5
  have ho : s.offset_for_ref_frame.length ≤ 255 := by
    have := h2.poc1
    split at this
    · omega
    · rw [this.2.2.2.2]; simp
  have hv : pointee vuiEntries s.vui_parameters ≤ 192 := by
    have := h2.vui
    split at this
    · obtain ⟨v, hv, ok⟩ := this
      rw [hv]
      have := hrd_bound ok.nal_hrd
      have := hrd_bound ok.vcl_hrd
      simp only [pointee, vuiEntries]
      simp only [pointee] at *
      omega
    · rw [this]; simp [pointee]
  unfold spsEntries
  omega

theorem sps_bound {s : SpsData} (h : ParsedBy parseSps s) : spsEntries s ≤ 545 := by
  obtain ⟨nd, l, t, e⟩ := parsedBy_runL h
  obtain ⟨t', e'⟩ := (sps_iff nd l s).mp ⟨t, e⟩
  exact spsData_bound e'

theorem subset_bound {s : SubsetSps} (h : ParsedBy parseSubsetSps s) : subsetEntries s ≤ 545 := by
  obtain ⟨nd, l, t, e⟩ := parsedBy_runL h
  obtain ⟨s1, x, s2, h1, _⟩ := (runL_subsetSps nd l s).mp ⟨t, e⟩
  exact spsData_bound h1

theorem ppsExt_bound {nd : Bool} {l t : LSt} {e : Nat × Nat × Scal × Int} (h : runL nd (parsePpsExt 1) l = .ok e t) :
    scalEntries e.2.2.1 ≤ 98 := by
  unfold parsePpsExt at h
  simp only [runL_bind_ok] at h
  obtain ⟨f, s1, h1, m, s2, h2, sc, s3, h3, q, s4, h4, h5⟩ := h
  have hf : f < 2 := by
    have := ((Codec.u (n := 1) (by omega) (by omega)) nd l.rem l.cnt f s1).mp h1
    simpa using this.1
  have h6 := scal_bound (by rw [if_pos (by omega)]; omega) h3
  simp only [Prog.pure_eq, runL_ret, Out.ok.injEq] at h5
  rw [← h5.1]
  exact h6

theorem pps_bound {p : Pps} (h : ParsedBy (parsePps 1) p) : ppsEntries p ≤ 139362 := by
  obtain ⟨nd, l, t, e⟩ := parsedBy_runL h
  obtain ⟨ok, _⟩ := pps_sound nd e
  have hs : scalEntries p.toScal ≤ 98 := by
    unfold parsePps at e
    simp only [runL_bind_ok] at e
    obtain ⟨hd, s1, _, m, s2, _, x, s3, h3, u, s4, _, h4⟩ := e
    have h5 : scalEntries x.2.2.1 ≤ 98 := by
      unfold Prog.opt at h3
      split at h3
      · exact ppsExt_bound h3
      · simp only [Prog.pure_eq, runL_ret, Out.ok.injEq] at h3
        rw [← h3.1]
        simp [scalEntries]
    simp only [Prog.pure_eq, runL_ret, Out.ok.injEq] at h4
    rw [← h4.1]
    exact h5
  have hn := ok.num_slice_groups_minus1
  have hr : p.run_length_minus1.length = 0 ∨ (p.run_length_minus1.length ≤ 8 ∧ p.slice_group_map_type = 0) := by
    have := ok.groups.runs
    split at this
    · right; omega
    · left; rw [this]; rfl
  have hc : (p.top_left.length = 0 ∧ p.bottom_right.length = 0) ∨
      (p.top_left.length ≤ 7 ∧ p.bottom_right.length ≤ 7 ∧ p.slice_group_map_type = 2) := by
    have := ok.groups.corners
    split at this
    · right; omega
    · left; rw [this.1, this.2]; exact ⟨rfl, rfl⟩
  have hi : p.slice_group_id.length = 0 ∨ (p.slice_group_id.length ≤ 139264 ∧ p.slice_group_map_type = 6) := by
    have := ok.groups.ids
    split at this
    · right; omega
    · left; rw [this.2]; rfl
  unfold ppsEntries
  omega

theorem sum_bound (f : Nat → Nat) {m : Nat} (h : ∀ k, f k ≤ m) (n : Nat) : ((List.range n).map f).sum ≤ n * m := by
  induction n with
  | zero => simp
  | succ n ih =>
    rw [List.range_succ, List.map_append, List.sum_append, Nat.succ_mul]
    have := h n
    simp only [List.map_cons, List.map_nil, List.sum_cons, List.sum_nil]
    omega

/-- C75: a reachable state has at most 32 sequence parameter sets, 256 picture parameter sets and 32 subset sequence parameter sets, and each
of them is of bounded size. -/
theorem C75_bounded {σ : Store} (h : Reachable σ) :
    (∀ k x, σ.sps k = some x → k < 32 ∧ spsEntries x ≤ 545) ∧ (∀ k x, σ.pps k = some x → k < 256 ∧ ppsEntries x ≤ 139362) ∧
    (∀ k x, σ.subset_sps k = some x → k < 32 ∧ subsetEntries x ≤ 545) := by
  have hv := C36_reachable_valid h
  have hp := C74_parsed h
  refine ⟨fun k x e => ⟨?_, sps_bound (hp.sps k x e).1⟩, fun k x e => ⟨?_, pps_bound (hp.pps k x e).1⟩,
    fun k x e => ⟨?_, subset_bound (hp.subset_sps k x e).1⟩⟩
  · have h1 := hv.sps k x e
    have := h1.1.1.seq_parameter_set_id
    omega
  · have h1 := hv.pps k x e
    have := h1.1.pic_parameter_set_id
    omega
  · have h1 := hv.subset_sps k x e
    have := h1.1.sps.1.seq_parameter_set_id
    omega

theorem pointee_le {α : Type} {f : α → Nat} {m : Nat} {o : Option α} (h : ∀ x, o = some x → f x ≤ m) : pointee f o ≤ m := by
  cases o with
  | none => simp [pointee]
  | some x => exact h x rfl

/-- C75: whatever was parsed before, the vectors of all the stored parameter sets have less than 36 million elements. -/
theorem C75_total {σ : Store} (h : Reachable σ) : storeEntries σ ≤ 35711552 := by
  obtain ⟨h1, h2, h3⟩ := C75_bounded h
  have a1 := sum_bound (fun k => pointee spsEntries (σ.sps k)) (fun k => pointee_le fun x e => (h1 k x e).2) 32
  have a2 := sum_bound (fun k => pointee ppsEntries (σ.pps k)) (fun k => pointee_le fun x e => (h2 k x e).2) 256
  have a3 := sum_bound (fun k => pointee subsetEntries (σ.subset_sps k)) (fun k => pointee_le fun x e => (h3 k x e).2) 32
  unfold storeEntries
  omega

/-! ### A state that meets the hypotheses -/

/-- The state after a stream with a sequence parameter set is reachable; it holds 90 elements. -/
example : ∃ σ, Reachable σ ∧ (σ.sps 0).isSome ∧ storeEntries σ = 90 := by
  have h : ∃ r, parseBitstream true {} (annexB [(true, exStapSpsNal)]) {} 0 = .val r ∧
      ((r.2.1.sps 0).isSome = true ∧ storeEntries r.2.1 = 90) := exists_dec (by decide +kernel)
  obtain ⟨⟨bs, σ, c⟩, h1, h2⟩ := h
  exact ⟨σ, .bitstream .empty (by decide +kernel) h1, h2⟩

end H264.Props
