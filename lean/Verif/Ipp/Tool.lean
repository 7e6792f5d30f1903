import Verif.Ipp.Props
import Verif.Ipp.JsonProps

/-!
# ippdecode: utils/ippdecode.cpp; property C94

The text form of JSON (`json11::Json::dump`) is a parameter.
-/

namespace Verif.Ipp

open Verif.Ipp.Spec

/-! ## Model -/

/-- A line with a title and a line with attributes, ippdecode.cpp 27, 30, 32. -/
def showGroup (dump : Json → Bytes) (title : Bytes) (g : Attrs) : Bytes := title ++ 10 :: (dump (attrsToJson g) ++ [10])

/-- What is shown of a message, ippdecode.cpp 26-32. -/
def showMsg (dump : Json → Bytes) (m : Msg) : Bytes :=
  ascii "IPP operation or status: " ++ dec m.opOrStatus.toNat ++ 10 ::
    (showGroup dump (ascii "Operation attrs: ") m.opAttrs ++ ((m.jobAttrs.flatMap (showGroup dump (ascii "Job attrs: "))) ++
      showGroup dump (ascii "Printer attrs: ") m.printerAttrs))

/-- `main`, ippdecode.cpp 7-38, on the arguments after the program's name: how it ends and what it has shown. `read` is `InBinFile` with what it contains. The
messages on the standard error output are in Convert/Small.lean. All exceptions of the decoder are `std::exception`s, and nothing has been shown when it throws. -/
def ippdecode (dump : Json → Bytes) (read : Bytes → Option Bytes) (args : List Bytes) : Outcome Nat × Bytes :=
  match args with
  | [name] =>
    match read name with
    | none => (.ok 1, [])
    | some data =>
      match decodeMsg data with
      | .ok (m, _) => (.ok 0, showMsg dump m)
      | .throws _ => (.ok 0, [])
      | .ub => (.ub, [])
      | .hang => (.hang, [])
  | _ => (.ok 1, [])

/-! ## Specification -/

/-- The text under a title, where `j` is what is read from it. -/
def Spec.part (dump : Json → Bytes) (title : Bytes) (j : Json) : Bytes := title ++ [10] ++ dump j ++ [10]

/-- JSON that has the attributes of a received group: read as attributes it gives those of the group; for repeated names the first one counts. -/
def Spec.JsonOf (g : List (Bytes × Attr)) (j : Json) : Prop := ∃ d, attrsFromJson j = .ok d ∧ Reports d g

/-- The claim that 0 means that a message was shown. -/
def C94_exit : Prop := ∀ (dump : Json → Bytes) (read : Bytes → Option Bytes) (args : List Bytes), (ippdecode dump read args).1 = .ok 0 → (ippdecode dump read args).2 ≠ []

/-! ## Theorems -/

theorem reports_groupOk {d : Attrs} {tag : UInt8} {g : List (Bytes × Attr)} (hr : Reports d g) (hg : RecvOk (tag, g)) : GroupOk d := by
  refine ⟨hr.1, fun name attr hm => ?_⟩
  have h := hr.2 name
  rw [KMap.get?_of_mem hr.1 hm] at h
  obtain ⟨e, he, rfl⟩ := Option.map_eq_some_iff.mp h.symm
  have hn := List.find?_some he
  simp only [decide_eq_true_eq] at hn
  have := hg.2 e.1 e.2 (List.mem_of_find?_eq_some he)
  rwa [hn] at this

theorem find_asTexts (g : List (Bytes × Attr)) (k : Bytes) :
    ((membersAsTexts g).find? (fun e => decide (e.1 = k))).map Prod.snd =
      ((g.find? (fun e => decide (e.1 = k))).map Prod.snd).map (fun a => (a.1, datesAsTexts a.2)) := by
  induction g with
  | nil => rfl
  | cons e g ih =>
    obtain ⟨n, tag, v⟩ := e
    rw [membersAsTexts, List.find?_cons, List.find?_cons]
    by_cases hk : n = k
    · simp [hk]
    · simp only [hk, decide_false]
      exact ih

theorem get_asTexts (d : Attrs) (k : Bytes) : KMap.get? (membersAsTexts d) k = (KMap.get? d k).map (fun a => (a.1, datesAsTexts a.2)) := by
  induction d with
  | nil => rfl
  | cons e d ih =>
    obtain ⟨n, tag, v⟩ := e
    rw [membersAsTexts, KMap.get?, KMap.get?]
    split
    · rfl
    · exact ih

theorem reports_asTexts {d : Attrs} {g : List (Bytes × Attr)} (h : Reports d g) : Reports (membersAsTexts d) (membersAsTexts g) := by
  refine ⟨?_, fun k => ?_⟩
  · have hs : (d.map Prod.fst).Pairwise (fun a b => bytesLt a b = true) := List.pairwise_map.mpr h.1
    rw [← membersAsTexts_keys] at hs
    exact List.pairwise_map.mp hs
  · rw [get_asTexts, find_asTexts, h.2]

theorem jsonOf_reports {d : Attrs} {tag : UInt8} {g : List (Bytes × Attr)} (hr : Reports d g) (hg : RecvOk (tag, g)) :
    JsonOf (membersAsTexts g) (attrsToJson d) :=
  ⟨_, C26_json_group_exact d (reports_groupOk hr hg), reports_asTexts hr⟩

theorem lastOfTag_ok {tag : UInt8} {gs : List (UInt8 × List (Bytes × Attr))} (ht : tag = 1 ∨ tag = 2 ∨ tag = 4 ∨ tag = 5) (h : ∀ g ∈ gs, RecvOk g) :
    RecvOk (tag, lastOfTag tag gs) := by
  have key : lastOfTag tag gs = [] ∨ ∃ g ∈ gs, g.2 = lastOfTag tag gs := by
    unfold lastOfTag ofTag
    cases hl : ((gs.filter (fun g => decide (g.1 = tag))).map Prod.snd).getLast? with
    | none => exact .inl rfl
    | some x =>
      obtain ⟨g, hg, rfl⟩ := List.mem_map.mp (List.mem_of_getLast? hl)
      exact .inr ⟨g, (List.mem_filter.mp hg).1, rfl⟩
  rcases key with h0 | ⟨g, hg, he⟩
  · rw [h0]; exact ⟨ht, by simp⟩
  · rw [← he]; exact ⟨ht, (h g hg).2⟩

theorem jobs_json {ds : List Attrs} {gs : List (List (Bytes × Attr))} (h : All2 Reports ds gs) (hok : ∀ g ∈ gs, RecvOk (2, g)) :
    All2 JsonOf (gs.map membersAsTexts) (ds.map attrsToJson) := by
  induction h with
  | nil => exact .nil
  | cons hr _ ih =>
    exact .cons (jsonOf_reports hr (hok _ List.mem_cons_self)) (ih (fun g hg => hok g (List.mem_cons_of_mem _ hg)))

/-- C94 for all messages that end with the end-of-attributes tag, whatever follows: ippdecode shows the operation or status, the operation attributes, every job
group in order, and the printer attributes, each as JSON that has these attributes, with dates as texts; nothing is shown if the end tag is taken for an attribute
(`Swallowed`). Missing: as for C24, repeated operation or printer groups, of which the last is shown, and messages without end tag. -/
theorem C94_shows_partial (dump : Json → Bytes) (read : Bytes → Option Bytes) (name : Bytes) (gs : List (UInt8 × List (Bytes × Attr))) (h : ∀ g ∈ gs, RecvOk g)
    (maj min : UInt8) (op : UInt16) (reqId : Nat) (doc : Bytes)
    (hread : read name = some (headerBytes maj min op reqId ++ (groupsBytes gs ++ 3 :: doc))) :
    (Swallowed gs doc → ippdecode dump read [name] = (.ok 0, [])) ∧
    (¬ Swallowed gs doc →
      ∃ jo js jp, ippdecode dump read [name] = (.ok 0, ascii "IPP operation or status: " ++ dec op.toNat ++ [10] ++ part dump (ascii "Operation attrs: ") jo ++
        js.flatMap (part dump (ascii "Job attrs: ")) ++ part dump (ascii "Printer attrs: ") jp) ∧
      JsonOf (membersAsTexts (lastOfTag 1 gs)) jo ∧ All2 JsonOf ((ofTag 2 gs).map membersAsTexts) js ∧ JsonOf (membersAsTexts (lastOfTag 4 gs)) jp) := by
  obtain ⟨hcut, hall⟩ := C24_groups_exact gs h maj min op reqId doc
  refine ⟨fun hs => ?_, fun hs => ?_⟩
  · unfold ippdecode
    simp only [hread, hcut hs]
  obtain ⟨m, hm, -, -, ho, h1, h2, h3⟩ := hall hs
  refine ⟨attrsToJson m.opAttrs, m.jobAttrs.map attrsToJson, attrsToJson m.printerAttrs, ?_, ?_, ?_, ?_⟩
  · unfold ippdecode
    simp only [hread, hm, showMsg, showGroup, part, ho, List.flatMap_map, List.append_assoc, List.cons_append, List.nil_append]
    rfl
  · exact jsonOf_reports h2 (lastOfTag_ok (by simp) h)
  · refine jobs_json h1 (fun g hg => ?_)
    obtain ⟨x, hx, rfl⟩ := List.mem_map.mp hg
    obtain ⟨hx, ht⟩ := List.mem_filter.mp hx
    exact ⟨by simp, (h x hx).2⟩
  · exact jsonOf_reports h3 (lastOfTag_ok (by simp) h)

/-- C94 for messages without end tag: what is shown is all groups but the last. -/
theorem C94_unterminated (dump : Json → Bytes) (read read' : Bytes → Option Bytes) (name : Bytes) (gs : List (UInt8 × List (Bytes × Attr))) (h : ∀ g ∈ gs, RecvOk g)
    (maj min : UInt8) (op : UInt16) (reqId : Nat) (hread : read name = some (headerBytes maj min op reqId ++ groupsBytes gs))
    (hread' : read' name = some (headerBytes maj min op reqId ++ (groupsBytes gs.dropLast ++ [3]))) :
    ippdecode dump read [name] = ippdecode dump read' [name] := by
  unfold ippdecode
  simp only [hread, hread', C24_groups_unterminated_partial gs h maj min op reqId]

/-- C94: ippdecode always ends; it shows nothing and ends with 1 if it is not given one file that can be opened; nothing but a message that the decoder takes is
shown. -/
theorem C94_ends (dump : Json → Bytes) (read : Bytes → Option Bytes) (args : List Bytes) :
    (ippdecode dump read args).1 ≠ .hang ∧
    ((∀ name data, args = [name] → read name ≠ some data) ↔ (ippdecode dump read args).1 = .ok 1) ∧
    ((ippdecode dump read args).2 ≠ [] → (ippdecode dump read args).1 = .ok 0 ∧ ∃ name data m, args = [name] ∧ read name = some data ∧ decodeMsg data = .ok m) := by
  unfold ippdecode
  split
  · rename_i name
    split
    · rename_i hr
      exact ⟨by simp, ⟨fun _ => rfl, fun _ n data h => by cases h; simp [hr]⟩, by simp⟩
    · rename_i data hr
      have hne : ¬ ∀ n d, [name] = [n] → read n ≠ some d := fun h => h name data rfl hr
      split
      · rename_i m hm
        exact ⟨by simp, ⟨fun h => absurd h hne, by simp⟩, fun _ => ⟨rfl, name, data, _, rfl, hr, hm⟩⟩
      · exact ⟨by simp, ⟨fun h => absurd h hne, by simp⟩, by simp⟩
      · exact ⟨by simp, ⟨fun h => absurd h hne, by simp⟩, by simp⟩
      · rename_i hm
        exact absurd hm (C23_decoding_ends data)
  · rename_i hn
    exact ⟨by simp, ⟨fun _ => rfl, fun _ n data h => absurd h (hn n)⟩, by simp⟩

/-- C94 is false of the exit code: ippdecode ends with 0 for whatever the decoder refuses, such as an empty file. -/
theorem C94_exit_false : ¬ C94_exit := by
  intro h
  have h := h (fun _ => []) (fun _ => some []) [ascii "a"]
  have he : ippdecode (fun _ => []) (fun _ => some []) [ascii "a"] = (.ok 0, []) := by
    have hd : ∃ e, decodeMsg [] = .throws e := ⟨_, rfl⟩
    obtain ⟨e, hd⟩ := hd
    unfold ippdecode
    simp only [hd]
  rw [he] at h
  exact h rfl rfl

/-! ## Examples -/

example : ∃ jo js jp, ippdecode (fun _ => [42]) (fun _ => some (headerBytes 2 0 11 9 ++ (groupsBytes sampleGroups ++ 3 :: []))) [ascii "a"] =
      (.ok 0, ascii "IPP operation or status: " ++ dec 11 ++ [10] ++ part (fun _ => [42]) (ascii "Operation attrs: ") jo ++
        js.flatMap (part (fun _ => [42]) (ascii "Job attrs: ")) ++ part (fun _ => [42]) (ascii "Printer attrs: ") jp) ∧
      JsonOf (membersAsTexts (lastOfTag 1 sampleGroups)) jo ∧ All2 JsonOf ((ofTag 2 sampleGroups).map membersAsTexts) js ∧
      JsonOf (membersAsTexts (lastOfTag 4 sampleGroups)) jp :=
  (C94_shows_partial _ _ _ sampleGroups sampleGroups_ok 2 0 11 9 [] rfl).2 (fun ⟨⟨r, h⟩, _⟩ => by simp at h)

example : (ippdecode (fun _ => [42]) (fun _ => some (headerBytes 2 0 11 9 ++ (groupsBytes sampleGroups ++ 3 :: []))) [ascii "a"]).2 =
    ascii "IPP operation or status: 11\nOperation attrs: \n*\nJob attrs: \n*\nJob attrs: \n*\nPrinter attrs: \n*\n" := by decide +kernel

end Verif.Ipp
