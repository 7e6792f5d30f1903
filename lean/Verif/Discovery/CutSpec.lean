import Verif.Discovery.AnswerSpec

/-!
# Specification: what a datagram tells that is the beginning of a response, or no response at all
-/

namespace Verif.Discovery.Spec

/-- The datagram begins like a response with these records (there may be more). -/
def Begins (m : Bytes) (rs : List Record) : Prop :=
  ∃ id flags questions answers authorities additional start,
    questions < 65536 ∧ answers < 65536 ∧ authorities < 65536 ∧ additional < 65536 ∧
    At m 0 (be16 id ++ be16 flags ++ be16 questions ++ be16 answers ++ be16 authorities ++ be16 additional) ∧
    QuestionsAt m questions 12 start ∧ RecordsAt m start rs ∧ rs.length ≤ answers + authorities + additional

/-- The first `k` of the records `rs`, and perhaps the first strings of the next one. -/
def Start (k : Nat) (rs rs' : List Record) : Prop :=
  rs' = rs.take k ∨ ∃ name strings j, rs[k]? = some ⟨name, .txt strings⟩ ∧ rs' = rs.take k ++ [⟨name, .txt (strings.take j)⟩]

/-- What the record tells stands in the datagram: its names, its strings, its port and its address. -/
def Inside (m : Bytes) (r : Record) : Prop :=
  (∀ l ∈ r.name, l <:+: m) ∧ match r.data with
    | .ptr target => ∀ l ∈ target, l <:+: m
    | .txt strings => ∀ s ∈ strings, s <:+: m
    | .srv _ _ port target => port < 65536 ∧ be16 port <:+: m ∧ ∀ l ∈ target, l <:+: m
    | .a a b c d => [a, b, c, d] <:+: m
    | .other _ _ => False

/-- What a datagram of any kind tells. -/
inductive Tells : Bytes → List Record → Prop
  /-- a response: its records -/
  | whole {m : Bytes} {rs : List Record} : Response m rs → m.length ≤ 4096 → Tells m rs
  /-- the beginning of a response: at least the records that are in it as a whole, and of the next one at most some strings -/
  | cut {m msg : Bytes} {rs rs' : List Record} {k : Nat} : Response msg rs → msg.length ≤ 4096 → m <+: msg → Start k rs rs' →
      (∀ k' ≤ rs.length, Begins m (rs.take k') → k' ≤ k) → Tells m rs'
  /-- anything else: records that stand in it -/
  | other {m : Bytes} {rs : List Record} : (∀ msg rs, Response msg rs → msg.length ≤ 4096 → ¬ m <+: msg) → (∀ r ∈ rs, Inside m r) → Tells m rs

/-- What datagrams tell. -/
inductive TellAll : List Bytes → List (List Record) → Prop
  | nil : TellAll [] []
  | cons {m : Bytes} {ms : List Bytes} {rs : List Record} {rss : List (List Record)} : Tells m rs → TellAll ms rss → TellAll (m :: ms) (rs :: rss)

end Verif.Discovery.Spec
