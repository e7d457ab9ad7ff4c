import Verif.SummaryRead

/-
What the summarising script reads from the text of a stream.
-/

namespace H264.Summary
open H264.Shown H264.Script

/-! ### The tokens of a NAL unit -/

/-- What slice headers refer to is stored. -/
def Refers (σ : Store) (n : NalUnit) : Prop :=
  (∀ x, n.nal_unit_payload.slice_layer_without_partitioning_rbsp = some x → ∀ h, x.slice_header = some h →
    ∃ c, setsOf σ h.pic_parameter_set_id = some c) ∧
  (∀ x, n.nal_unit_payload.slice_layer_extension_rbsp = some x →
    (∀ h, x.slice_header_in_scalable_extension = some h →
      x.svc_extension_flag = 1 ∧ ∃ c, ctxOf σ n.nal_unit_header h.pic_parameter_set_id = some c) ∧
    (∀ h, x.slice_header = some h →
      (x.svc_extension_flag = 0 ∧ x.avc_3d_extension_flag = 0) ∧ ∃ c, setsOf σ h.pic_parameter_set_id = some c))

inductive Refs : Store → List NalUnit → Prop
  | nil (σ : Store) : Refs σ []
  | cons {σ : Store} {n : NalUnit} {ns : List NalUnit} : Refers σ n → Refs (stored σ n.nal_unit_payload) ns → Refs σ (n :: ns)

/-- What the payload of a NAL unit shows. -/
inductive Shows (opts : ParsingOptions) (n : NalUnit) : List Tok → Prop
  | sps (x : SpsData) (A B : List Tok) : Spec.spsIn n = some x → Spec.hasSliceHeader n = false → Clean A → Clean B →
      Shows opts n (A ++ (toks (spsDataItem opts x) ++ B))
  | slice (A B : List Tok) : Spec.spsIn n = none → Spec.hasSliceHeader n = true → Clean A → Clean B →
      Shows opts n (A ++ (.opens "slice_header" :: B))
  | scal (A B : List Tok) : Spec.spsIn n = none → Spec.hasSliceHeader n = true → Clean A → Clean B →
      Shows opts n (A ++ (.opens "slice_header_in_scalable_extension" :: B))
  | none (A : List Tok) : Spec.spsIn n = none → Spec.hasSliceHeader n = false → Clean A → Shows opts n A

theorem clean_one {name : String} (h : cleanOpen name = true) : Clean [.opens name] := clean_opens h clean_nil
theorem toksIn_flat (a : List Item) : toksIn [a].flatten = toksIn a := by rw [toksIn_cons]; exact List.append_nil _
theorem clean_blank : Clean (toksIn [.blank]) := clean_nil

theorem payload_shows (σ : Store) (opts : ParsingOptions) (n : NalUnit) (hr : Refers σ n) :
    Shows opts n (toks (payloadItem σ opts n.nal_unit_header n.nal_unit_payload)) := by
  have hp : cleanOpen "nal_unit_payload" = true := by decide +kernel
  have hb : ∀ {L : List Tok}, Spec.spsIn n = none → Spec.hasSliceHeader n = false → Clean L → Shows opts n (.opens "nal_unit_payload" :: L) :=
    fun h1 h2 h => .none _ h1 h2 (clean_opens hp h)
  unfold payloadItem
  rw [toks_struct, toksIn_flat]
  by_cases t1 : n.nal_unit_header.nal_unit_type ∈ [1, 5]
  · have s0 : Spec.spsIn n = none := by
      unfold Spec.spsIn
      simp only [List.mem_cons, List.not_mem_nil, or_false] at t1
      rw [if_neg (by omega), if_neg (by omega)]
    rw [if_pos t1]
    cases hx : n.nal_unit_payload.slice_layer_without_partitioning_rbsp with
    | none => exact hb s0 (by unfold Spec.hasSliceHeader; rw [if_pos t1, hx]) clean_blank
    | some x =>
      rw [line, toksIn_one, sliceLayerItem, toks_struct, toksIn_flat]
      cases hh : x.slice_header with
      | none => exact hb s0 (by unfold Spec.hasSliceHeader; rw [if_pos t1, hx]; dsimp only; rw [hh]; rfl) (clean_one (by decide +kernel))
      | some h =>
        obtain ⟨⟨s, p⟩, hc⟩ := hr.1 x hx h hh
        obtain ⟨B, hB, e⟩ := sliceHeader_toks n.nal_unit_header.nal_ref_idc n.nal_unit_header.nal_unit_type s p h
        dsimp only
        unfold sliceHeaderIn
        rw [hc, part, toksIn_one]
        dsimp only
        rw [e]
        exact .slice [.opens "nal_unit_payload", .opens "slice_layer_without_partitioning_rbsp"] B s0
          (by unfold Spec.hasSliceHeader; rw [if_pos t1, hx]; dsimp only; rw [hh]; rfl) (clean_opens hp (clean_one (by decide +kernel))) hB
  rw [if_neg t1]
  by_cases t7 : n.nal_unit_header.nal_unit_type = 7
  · have h0 : Spec.hasSliceHeader n = false := by unfold Spec.hasSliceHeader; rw [if_neg t1, if_neg (by omega)]
    have s0 : Spec.spsIn n = n.nal_unit_payload.sps := by unfold Spec.spsIn; rw [if_pos t7]
    rw [if_pos t7]
    cases hx : n.nal_unit_payload.sps with
    | none => exact hb (s0.trans hx) h0 clean_blank
    | some x =>
      rw [line, toksIn_one, spsItem, toks_struct, toksIn_flat, toksIn_one]
      have := Shows.sps (opts := opts) (n := n) x [.opens "nal_unit_payload", .opens "sps"] [] (s0.trans hx) h0
        (clean_opens hp (clean_one (by decide +kernel))) clean_nil
      rw [List.append_nil] at this
      exact this
  rw [if_neg t7]
  by_cases t8 : n.nal_unit_header.nal_unit_type = 8
  · have h0 : Spec.hasSliceHeader n = false := by unfold Spec.hasSliceHeader; rw [if_neg t1, if_neg (by omega)]
    have s0 : Spec.spsIn n = none := by unfold Spec.spsIn; rw [if_neg (by omega), if_neg (by omega)]
    rw [if_pos t8]
    refine hb s0 h0 ?_
    cases n.nal_unit_payload.pps with
    | none => exact clean_blank
    | some x => rw [line, toksIn_one]; exact pps_clean x
  rw [if_neg t8]
  by_cases t14 : n.nal_unit_header.nal_unit_type = 14
  · have h0 : Spec.hasSliceHeader n = false := by unfold Spec.hasSliceHeader; rw [if_neg t1, if_neg (by omega)]
    have s0 : Spec.spsIn n = none := by unfold Spec.spsIn; rw [if_neg (by omega), if_neg (by omega)]
    rw [if_pos t14]
    refine hb s0 h0 ?_
    cases n.nal_unit_payload.prefix_nal_unit with
    | none => exact clean_blank
    | some x => rw [line, toksIn_one]; exact prefix_clean x
  rw [if_neg t14]
  by_cases t15 : n.nal_unit_header.nal_unit_type = 15
  · have h0 : Spec.hasSliceHeader n = false := by unfold Spec.hasSliceHeader; rw [if_neg t1, if_neg (by omega)]
    have s0 : Spec.spsIn n = n.nal_unit_payload.subset_sps.map (·.seq_parameter_set_data) := by
      unfold Spec.spsIn; rw [if_neg (by omega), if_pos t15]
    rw [if_pos t15]
    cases hx : n.nal_unit_payload.subset_sps with
    | none => exact hb (by rw [s0, hx]; rfl) h0 clean_blank
    | some x =>
      rw [line, toksIn_one, subsetSpsItem, toks_struct, toksIn_cons, toksIn_one]
      refine .sps (opts := opts) (n := n) x.seq_parameter_set_data [.opens "nal_unit_payload", .opens "subset_sps"] _ (by rw [s0, hx]; rfl) h0
        (clean_opens hp (clean_one (by decide +kernel))) ?_
      clean
      exact clean_part (spsSvc_clean _)
  rw [if_neg t15]
  have s0 : Spec.spsIn n = none := by unfold Spec.spsIn; rw [if_neg t7, if_neg t15]
  by_cases t20 : n.nal_unit_header.nal_unit_type = 20
  · rw [if_pos t20]
    cases hx : n.nal_unit_payload.slice_layer_extension_rbsp with
    | none => exact hb s0 (by unfold Spec.hasSliceHeader; rw [if_neg t1, if_pos t20, hx]) clean_blank
    | some x =>
      have hq : Spec.hasSliceHeader n = (x.slice_header_in_scalable_extension.isSome || x.slice_header.isSome) := by
        unfold Spec.hasSliceHeader; rw [if_neg t1, if_pos t20, hx]
      obtain ⟨r1, r2⟩ := hr.2 x hx
      rw [line, toksIn_one, sliceLayerExtItem, toks_struct, toksIn_cons, toksIn_flat]
      cases hh : x.slice_header_in_scalable_extension with
      | some h =>
        obtain ⟨hf, c, hc⟩ := r1 h hh
        obtain ⟨B, hB, e⟩ := scalHeader_toks c h
        rw [Shown.opt, if_pos hf, Shown.opt, if_neg (by omega), toksIn_flat]
        dsimp only
        unfold scalHeaderIn
        rw [hc, part, toksIn_one, e, show toksIn [] = [] from rfl, List.append_nil]
        exact .scal [.opens "nal_unit_payload", .opens "slice_layer_extension_rbsp"] B s0 (by rw [hq, hh]; rfl)
          (clean_opens hp (clean_one (by decide +kernel))) hB
      | none =>
        have hfirst : toksIn (Shown.opt (x.svc_extension_flag = 1) [[.blank]]) = [] := by
          unfold Shown.opt
          split <;> rfl
        dsimp only
        rw [hfirst, List.nil_append]
        cases hs : x.slice_header with
        | none =>
          refine hb s0 (by rw [hq, hh, hs]; rfl) (clean_opens (by decide +kernel) ?_)
          unfold Shown.opt
          split <;> exact clean_nil
        | some h =>
          obtain ⟨hf, ⟨s, p⟩, hc⟩ := r2 h hs
          obtain ⟨B, hB, e⟩ := sliceHeader_toks n.nal_unit_header.nal_ref_idc n.nal_unit_header.nal_unit_type s p h
          rw [Shown.opt, if_pos hf, toksIn_flat]
          dsimp only
          unfold sliceHeaderIn
          rw [hc, part, toksIn_one]
          dsimp only
          rw [e]
          exact .slice [.opens "nal_unit_payload", .opens "slice_layer_extension_rbsp"] B s0 (by rw [hq, hh, hs]; rfl)
            (clean_opens hp (clean_one (by decide +kernel))) hB
  rw [if_neg t20]
  exact hb s0 (by unfold Spec.hasSliceHeader; rw [if_neg t1, if_neg t20]) clean_blank

/-- The options with which the script runs the tool. -/
theorem summaryOpts : toolOptions summaryArgs =
    { add_offset := false, add_length := false, add_parsed_length := false, add_checksum := false, add_resolution := true } := by decide

theorem unit_item (σ : Store) (bytes : List UInt8) (n : NalUnit) : nalUnitItem σ (toolOptions summaryArgs) bytes n =
    .group "nal_unit" [headerItem n.nal_unit_header, payloadItem σ (toolOptions summaryArgs) n.nal_unit_header n.nal_unit_payload] := by
  unfold nalUnitItem struct
  rw [summaryOpts]
  simp [Shown.opt]

theorem unit_toks (σ : Store) (bytes : List UInt8) (n : NalUnit) : toks (nalUnitItem σ (toolOptions summaryArgs) bytes n) =
    .opens "nal_unit" :: (toks (headerItem n.nal_unit_header) ++
      toks (payloadItem σ (toolOptions summaryArgs) n.nal_unit_header n.nal_unit_payload)) := by
  rw [unit_item, toks, toksIn, toksIn_one]

theorem vals_hit {key : List Char} {name : String} (h : ends key false name.toList = true) (v : List Char) (ts : List Tok) :
    vals key (.field name v :: ts) = v :: vals key ts := by
  rw [show Tok.field name v :: ts = [.field name v] ++ ts from rfl, vals_append, vals_field, if_pos h]
  rfl
theorem vals_miss {key : List Char} {name : String} (h : ends key false name.toList = false) (v : List Char) (ts : List Tok) :
    vals key (.field name v :: ts) = vals key ts := by
  rw [show Tok.field name v :: ts = [.field name v] ++ ts from rfl, vals_append, vals_field, if_neg (by rw [h]; simp)]
  rfl
theorem opensN_field (key : List Char) (name : String) (v : List Char) (ts : List Tok) : opensN key (.field name v :: ts) = opensN key ts := by
  unfold opensN
  rw [List.countP_cons]
  simp

macro "look" : tactic => `(tactic| repeat (first
  | rw [vals_opens] | rw [vals_hit (by decide +kernel)] | rw [vals_miss (by decide +kernel)] | rw [vals_append]))

theorem header_type (n : NalHeader) : vals "nal_unit_type".toList (toks (headerItem n)) = [(toString n.nal_unit_type).toList] := by
  obtain ⟨A, B, hA, hB, e⟩ := header_toks n
  rw [e, vals_append, hA.vals (by decide), vals_hit (by decide +kernel), hB.vals (by decide)]
  rfl
theorem header_other {key : List Char} (hk : key ∈ fkeys) (h : ends key false "nal_unit_type".toList = false) (n : NalHeader) :
    vals key (toks (headerItem n)) = [] := by
  obtain ⟨A, B, hA, hB, e⟩ := header_toks n
  rw [e, vals_append, hA.vals hk, vals_miss h, hB.vals hk]
  rfl
theorem header_opens {key : List Char} (hk : key ∈ okeys) (n : NalHeader) : opensN key (toks (headerItem n)) = 0 := by
  obtain ⟨A, B, hA, hB, e⟩ := header_toks n
  rw [e, opensN_append, hA.opensN hk, opensN_field, hB.opensN hk]

theorem sps_type {opts : ParsingOptions} (ho : opts.add_resolution = true) (x : SpsData) : vals "nal_unit_type".toList (toks (spsDataItem opts x)) = [] := by
  obtain ⟨R, hR, e⟩ := spsData_toks ho x
  rw [e]
  look
  rw [hR.vals (by decide)]
  rfl

theorem sps_opens {opts : ParsingOptions} (ho : opts.add_resolution = true) (x : SpsData) {key : List Char} (hk : key ∈ okeys) :
    opensN key (toks (spsDataItem opts x)) = if key = "sps_data".toList then 1 else 0 := by
  obtain ⟨R, hR, e⟩ := spsData_toks ho x
  rw [e, opensN_opens]
  simp only [opensN_field, opensN_append, hR.opensN hk]
  rw [show opensN key [] = 0 from rfl]
  simp only [okeys, List.map_cons, List.map_nil, List.mem_cons, List.not_mem_nil, or_false] at hk
  rcases hk with rfl | rfl | rfl | rfl <;> decide +kernel

/-- The fields of an SPS that the script reads. -/
theorem sps_vals {opts : ParsingOptions} (ho : opts.add_resolution = true) (x : SpsData) :
    vals "profile_idc".toList (toks (spsDataItem opts x)) = [(toString x.profile_idc).toList] ∧
    vals "constraint_set3_flag".toList (toks (spsDataItem opts x)) = [(toString x.constraint_set3_flag).toList] ∧
    vals "level_idc".toList (toks (spsDataItem opts x)) = [(toString x.level_idc).toList] ∧
    vals "width".toList (toks (spsDataItem opts x)) = [(toString (Spec.resolutionOf x).1).toList] ∧
    vals "height".toList (toks (spsDataItem opts x)) = [(toString (Spec.resolutionOf x).2).toList] := by
  obtain ⟨R, hR, e⟩ := spsData_toks ho x
  rw [e]
  refine ⟨?_, ?_, ?_, ?_, ?_⟩ <;> (look; rw [hR.vals (by decide)]; rfl)

theorem unit_type {σ : Store} {n : NalUnit} (hr : Refers σ n) (bytes : List UInt8) :
    vals "nal_unit_type".toList (toks (nalUnitItem σ (toolOptions summaryArgs) bytes n)) = [(toString n.nal_unit_header.nal_unit_type).toList] := by
  rw [unit_toks, vals_opens, vals_append, header_type]
  have : vals "nal_unit_type".toList (toks (payloadItem σ (toolOptions summaryArgs) n.nal_unit_header n.nal_unit_payload)) = [] := by
    have hs := payload_shows σ (toolOptions summaryArgs) n hr
    generalize toks (payloadItem σ (toolOptions summaryArgs) n.nal_unit_header n.nal_unit_payload) = P at hs ⊢
    cases hs with
    | sps x A B _ _ hA hB => rw [vals_append, vals_append, hA.vals (by decide), hB.vals (by decide), sps_type rfl]; rfl
    | slice A B _ _ hA hB => rw [vals_append, vals_opens, hA.vals (by decide), hB.vals (by decide)]; rfl
    | scal A B _ _ hA hB => rw [vals_append, vals_opens, hA.vals (by decide), hB.vals (by decide)]; rfl
    | none A _ _ hA => exact hA.vals (by decide)
  rw [this]
  rfl

theorem unit_opens {σ : Store} {n : NalUnit} (hr : Refers σ n) (bytes : List UInt8) :
    opensN "nal_unit".toList (toks (nalUnitItem σ (toolOptions summaryArgs) bytes n)) = 1 ∧
    opensN "sps_data".toList (toks (nalUnitItem σ (toolOptions summaryArgs) bytes n)) = (if (Spec.spsIn n).isSome then 1 else 0) ∧
    opensN "slice_header".toList (toks (nalUnitItem σ (toolOptions summaryArgs) bytes n)) +
      opensN "slice_header_in_scalable_extension".toList (toks (nalUnitItem σ (toolOptions summaryArgs) bytes n)) =
      (if Spec.hasSliceHeader n then 1 else 0) := by
  rw [unit_toks]
  simp only [opensN_opens, opensN_append]
  rw [header_opens (by decide), header_opens (by decide), header_opens (by decide), header_opens (by decide)]
  rw [show (if "nal_unit".toList.isSuffixOf "nal_unit".toList = true then 1 else 0) = 1 by decide +kernel,
    show (if "sps_data".toList.isSuffixOf "nal_unit".toList = true then 1 else 0) = 0 by decide +kernel,
    show (if "slice_header".toList.isSuffixOf "nal_unit".toList = true then 1 else 0) = 0 by decide +kernel,
    show (if "slice_header_in_scalable_extension".toList.isSuffixOf "nal_unit".toList = true then 1 else 0) = 0 by decide +kernel]
  have hs := payload_shows σ (toolOptions summaryArgs) n hr
  generalize toks (payloadItem σ (toolOptions summaryArgs) n.nal_unit_header n.nal_unit_payload) = P at hs ⊢
  cases hs with
  | sps x A B h1 h2 hA hB =>
    simp only [opensN_append, h1, h2]
    rw [hA.opensN (by decide), hA.opensN (by decide), hA.opensN (by decide), hA.opensN (by decide), hB.opensN (by decide), hB.opensN (by decide),
      hB.opensN (by decide), hB.opensN (by decide), sps_opens rfl x (by decide), sps_opens rfl x (by decide), sps_opens rfl x (by decide),
      sps_opens rfl x (by decide), Option.isSome_some]
    decide +kernel
  | slice A B h1 h2 hA hB =>
    simp only [opensN_append, opensN_opens, h1, h2]
    rw [hA.opensN (by decide), hA.opensN (by decide), hA.opensN (by decide), hA.opensN (by decide), hB.opensN (by decide), hB.opensN (by decide),
      hB.opensN (by decide), hB.opensN (by decide)]
    decide +kernel
  | scal A B h1 h2 hA hB =>
    simp only [opensN_append, opensN_opens, h1, h2]
    rw [hA.opensN (by decide), hA.opensN (by decide), hA.opensN (by decide), hA.opensN (by decide), hB.opensN (by decide), hB.opensN (by decide),
      hB.opensN (by decide), hB.opensN (by decide)]
    decide +kernel
  | none A h1 h2 hA =>
    simp only [h1, h2]
    rw [hA.opensN (by decide), hA.opensN (by decide), hA.opensN (by decide), hA.opensN (by decide)]
    decide

/-- A field of the SPS in a NAL unit. -/
theorem unit_sps {σ : Store} {n : NalUnit} (hr : Refers σ n) (bytes : List UInt8) {x : SpsData} (hx : Spec.spsIn n = some x)
    {key : List Char} (hk : key ∈ fkeys) (h : ends key false "nal_unit_type".toList = false) :
    vals key (toks (nalUnitItem σ (toolOptions summaryArgs) bytes n)) = vals key (toks (spsDataItem (toolOptions summaryArgs) x)) := by
  rw [unit_toks, vals_opens, vals_append, header_other hk h]
  have hs := payload_shows σ (toolOptions summaryArgs) n hr
  generalize toks (payloadItem σ (toolOptions summaryArgs) n.nal_unit_header n.nal_unit_payload) = P at hs ⊢
  cases hs with
  | sps y A B h1 _ hA hB =>
    rw [h1] at hx
    obtain rfl := Option.some.inj hx
    rw [vals_append, vals_append, hA.vals hk, hB.vals hk, List.append_nil]; rfl
  | slice A B h1 _ hA hB => rw [h1] at hx; cases hx
  | scal A B h1 _ hA hB => rw [h1] at hx; cases hx
  | none A h1 _ hA => rw [h1] at hx; cases hx

end H264.Summary
