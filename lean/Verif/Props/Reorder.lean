import Verif.Props.Damage

/-
C87: NAL units and packets without parameter sets can come in any order.
-/

namespace H264.Props
open H264 H264.Spec

theorem Runs.perm {α : Type} {f : List UInt8 → Store → Nat → Res (α × Store × Nat)} (hf : Shift f) {qs qs' : List (List UInt8)} (hp : qs.Perm qs') :
    ∀ {σ : Store} {c : Nat} {ys : List α} {σ' : Store} {c' : Nat}, Runs f qs σ c ys σ' c' → (∀ z ∈ qs.zip ys, KeepsState f z.1 z.2) →
      ∃ ys', Runs f qs' σ c ys' σ' c' ∧ (qs'.zip ys').Perm (qs.zip ys) := by
  induction hp with
  | nil => exact fun h _ => ⟨_, h, .refl _⟩
  | @cons x l l' _ ih =>
    intro σ c ys σ' c' h hk
    cases h with
    | cons h1 h2 =>
      obtain ⟨ys', h3, h4⟩ := ih h2 (fun z hz => hk z (by rw [List.zip_cons_cons]; exact List.mem_cons_of_mem _ hz))
      exact ⟨_ :: ys', .cons h1 h3, by rw [List.zip_cons_cons, List.zip_cons_cons]; exact h4.cons _⟩
  | swap x y l =>
    intro σ c ys σ' c' h hk
    cases h with
    | @cons _ _ _ _ _ _ _ _ a _ h1 h2 =>
      cases h2 with
      | @cons _ _ _ _ _ _ _ _ b bs h3 h4 =>
        have e1 := hk (y, a) (by simp) _ _ _ _ h1
        subst e1
        have e2 := hk (x, b) (by simp) _ _ _ _ h3
        subst e2
        obtain ⟨n, rfl, k1⟩ := hf _ _ _ _ _ _ h1
        obtain ⟨m, rfl, k2⟩ := hf _ _ _ _ _ _ h3
        refine ⟨b :: a :: bs, .cons (k2 c) (.cons (k1 (c + m)) ?_), by
          simp only [List.zip_cons_cons]; exact List.Perm.swap _ _ _⟩
        rw [show c + m + n = c + n + m by omega]
        exact h4
  | trans _ _ ih1 ih2 =>
    intro σ c ys σ' c' h hk
    obtain ⟨y1, h1, h2⟩ := ih1 h hk
    obtain ⟨y2, h3, h4⟩ := ih2 h1 (fun z hz => hk z (h2.mem_iff.mp hz))
    exact ⟨y2, h3, h4.trans h2⟩

theorem zip_mem {α β : Type} : ∀ {l : List α} {m : List β} {z : α × β}, z ∈ l.zip m → z.1 ∈ l
  | [], _, _, h => by simp at h
  | _ :: _, [], _, h => by simp at h
  | a :: l, b :: m, z, h => by
    rw [List.zip_cons_cons] at h
    rcases List.mem_cons.mp h with rfl | h
    · simp
    · exact List.mem_cons_of_mem _ (zip_mem h)

/-- C87: RTP packets in which no parameter set is found can come in any order.  The packets `qs` come as `qs'`, between the same packets
`ps` and `ts`: each gives the same result, those before and after them do too, and the parser state and the count in the end are the same. -/
theorem C87_packets {nd : Bool} {ps qs qs' ts : List (List UInt8)} (hl : ∀ q ∈ qs, q.length < 2 ^ 61) (hp : qs.Perm qs')
    {σ σ' : Store} {c c' : Nat} {xs : List (Option Rtp)} (h : Session nd (ps ++ qs ++ ts) σ c xs σ' c')
    (hs : ∀ (i : Nat) (q : List UInt8) (x : Option Rtp), qs[i]? = some q → xs[ps.length + i]? = some x →
      (∀ y, x = some y → NoParameterSet y) ∧ (x = none → packetType q ≠ some 24)) :
    ∃ xp xq xq' xt, xp.length = ps.length ∧ xq.length = qs.length ∧ xq'.length = qs'.length ∧ xs = xp ++ xq ++ xt ∧
      Session nd (ps ++ qs' ++ ts) σ c (xp ++ xq' ++ xt) σ' c' ∧ (qs'.zip xq').Perm (qs.zip xq) := by
  obtain ⟨x1, xt, σ1, c1, rfl, h1, h2⟩ := (session_runs.mp h).split
  obtain ⟨xp, xq, σ2, c2, rfl, h3, h4⟩ := h1.split
  obtain ⟨xq', h5, h6⟩ := h4.perm (shift_rtp nd) hp (fun z hz => by
    obtain ⟨i, hi⟩ := List.getElem?_of_mem hz
    rw [List.getElem?_zip_eq_some] at hi
    refine rtp_keeps (hl z.1 (zip_mem hz)) (hs i z.1 z.2 hi.1 ?_)
    rw [List.append_assoc, ← h3.length, List.getElem?_append_right (by omega), Nat.add_sub_cancel_left,
      List.getElem?_append_left (List.getElem?_eq_some_iff.mp hi.2).1]
    exact hi.2)
  exact ⟨xp, xq, xq', xt, h3.length, h4.length, h5.length, rfl, session_runs.mpr ((h3.append h5).append h2), h6⟩

/-- C87: the same for NAL units of an Annex B stream that are no parameter sets. -/
theorem C87_stream {nd : Bool} {opts : ParsingOptions} {us qs qs' vs : List (Bool × List UInt8)} (hu : ∀ x ∈ us ++ qs ++ vs, Carriable x.2)
    (hp : qs.Perm qs') (hl : (annexB (us ++ qs ++ vs)).length < 2 ^ 61) (hl' : (annexB (us ++ qs' ++ vs)).length < 2 ^ 61)
    (hs : ∀ q ∈ qs, ∀ t ∈ parameterSetTypes, packetType q.2 ≠ some t) {σ σ' : Store} {c c' : Nat} {bs : Bitstream}
    (h : parseBitstream nd opts (annexB (us ++ qs ++ vs)) σ c = .val (bs, σ', c')) :
    ∃ (bs' : Bitstream) (ru rq rq' rv : List (Option (Nat × Option NaluChecksum × NalHeader × Payload))),
      parseBitstream nd opts (annexB (us ++ qs' ++ vs)) σ c = .val (bs', σ', c') ∧
      ru.length = us.length ∧ rq.length = qs.length ∧ rq'.length = qs'.length ∧ rv.length = vs.length ∧
      contents bs = (ru ++ rq ++ rv).filterMap id ∧ contents bs' = (ru ++ rq' ++ rv).filterMap id ∧
      ((qs'.map (·.2)).zip rq').Perm ((qs.map (·.2)).zip rq) := by
  obtain ⟨rs, h1, h2⟩ := (stream_runs nd opts hu hl σ c _ σ' c').mp ⟨bs, h, rfl⟩
  rw [List.map_append, List.map_append] at h1
  obtain ⟨x1, rv, σ1, c1, rfl, h3, h4⟩ := h1.split
  obtain ⟨ru, rq, σ2, c2, rfl, h5, h6⟩ := h3.split
  obtain ⟨rq', h7, h8⟩ := h6.perm (shift_nal nd opts) (hp.map (·.2)) (fun z hz => by
    obtain ⟨q, hq, e⟩ := List.mem_map.mp (zip_mem hz)
    intro τ d τ' d' k
    have hz1 : z.1.length < 2 ^ 61 := by
      rw [← e]
      exact Nat.lt_of_le_of_lt (annexB_mem_le _ q (by simp [hq])) hl
    exact nal_no_set hz1 k (by rw [← e]; exact hs q hq))
  have h9 := (h5.append h7).append h4
  rw [← List.map_append, ← List.map_append] at h9
  obtain ⟨bs', g1, g2⟩ := (stream_runs nd opts (fun x hx => hu x (by
    simp only [List.mem_append] at hx ⊢
    rcases hx with (hx | hx) | hx
    · exact .inl (.inl hx)
    · exact .inl (.inr (hp.mem_iff.mpr hx))
    · exact .inr hx)) hl' σ c _ σ' c').mpr ⟨_, h9, rfl⟩
  refine ⟨bs', ru.map (·.map contentOf), rq.map (·.map contentOf), rq'.map (·.map contentOf), rv.map (·.map contentOf), g1, ?_, ?_, ?_, ?_, ?_, ?_, ?_⟩
  · rw [List.length_map, h5.length, List.length_map]
  · rw [List.length_map, h6.length, List.length_map]
  · rw [List.length_map, h7.length, List.length_map]
  · rw [List.length_map, h4.length, List.length_map]
  · rw [← h2, ← List.map_append, ← List.map_append, List.filterMap_map]
    rfl
  · rw [g2, ← List.map_append, ← List.map_append, List.filterMap_map]
    rfl
  · rw [List.zip_map_right, List.zip_map_right]
    exact h8.map _

/-! ### Examples -/

/-- Two slices change places. -/
example (nd : Bool) :
    (∃ r, parseBitstream nd {} (annexB (cutSets ++ [(true, [0x01, 0xb8, 0x10, 0x10, 0x11, 0x80]), (true, [0x01, 0xb8, 0x30, 0x10, 0x11, 0x80])] ++
      [(true, [0x0a])])) {} 0 = .val r ∧ frameNums r.1 = (5, [some 8, some 24])) ∧
    (∃ r, parseBitstream nd {} (annexB (cutSets ++ [(true, [0x01, 0xb8, 0x30, 0x10, 0x11, 0x80]), (true, [0x01, 0xb8, 0x10, 0x10, 0x11, 0x80])] ++
      [(true, [0x0a])])) {} 0 = .val r ∧ frameNums r.1 = (5, [some 24, some 8])) ∧
    ∀ q ∈ [(true, [0x01, 0xb8, 0x10, 0x10, 0x11, 0x80]), (true, [0x01, 0xb8, 0x30, 0x10, 0x11, 0x80])],
      ∀ t ∈ parameterSetTypes, packetType q.2 ≠ some t := by
  cases nd <;> exact ⟨exists_dec (by decide +kernel), exists_dec (by decide +kernel), by decide⟩

/-- The condition is needed: a slice that comes before its PPS has no slice header. -/
theorem C87_pps (nd : Bool) (b : Bool) :
    ∃ r, parseBitstream nd {} (annexB (cutSets.take 1 ++ if b then cutSets.drop 1 ++ [(true, [0x01, 0xb8, 0x10, 0x10, 0x11, 0x80])]
      else [(true, [0x01, 0xb8, 0x10, 0x10, 0x11, 0x80])] ++ cutSets.drop 1)) {} 0 = .val r ∧
      frameNums r.1 = (3, if b then [some 8] else []) := by
  cases nd <;> cases b <;> exact exists_dec (by decide +kernel)

/-- An access unit delimiter and an end of sequence, each in a packet of its own. -/
example (nd : Bool) :
    (∃ r, parseRtpData nd [0x09, 0xf0] 0 2 {} 0 = .val r ∧
      (r.1.map fun x => (rtpPayloads x).map fun p => (p.sps.isNone, p.pps.isNone, p.subset_sps.isNone)) = some [(true, true, true)]) ∧
    (∃ r, parseRtpData nd [0x0a] 0 1 {} 0 = .val r ∧
      (r.1.map fun x => (rtpPayloads x).map fun p => (p.sps.isNone, p.pps.isNone, p.subset_sps.isNone)) = some [(true, true, true)]) := by
  cases nd <;> exact ⟨exists_dec (by decide +kernel), exists_dec (by decide +kernel)⟩

end H264.Props
