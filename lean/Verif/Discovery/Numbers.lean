import Verif.Discovery.QueryProps
import Verif.Discovery.Throttle

/-!
# The transaction numbers of queries, lib/ippdiscovery.cpp 107-175 (C127)
-/

namespace Verif.Discovery

namespace Spec

/-- The datagram starts with this 16-bit number, the high byte first (RFC 1035, 4.1.1). -/
def Numbered (datagram : Bytes) (n : Nat) : Prop :=
  n < 65536 ∧ ∃ hi lo : UInt8, ∃ rest, datagram = hi :: lo :: rest ∧ hi.toNat * 256 + lo.toNat = n

end Spec

open Verif.Discovery.Spec

theorem makeQuery_numbered {n : Nat} (hn : n < 65536) (qtype : Nat) (addrs : List Bytes) : Numbered (makeQuery n qtype addrs) n := by
  obtain ⟨more, hm⟩ := putQuestions_prefix qtype addrs (be16 n ++ be16 0 ++ be16 addrs.length ++ be16 0 ++ be16 0 ++ be16 0) []
  refine ⟨hn, UInt8.ofNat (n / 256), UInt8.ofNat n, be16 0 ++ be16 addrs.length ++ be16 0 ++ be16 0 ++ be16 0 ++ more, ?_, ?_⟩
  · unfold makeQuery
    rw [hm]
    rfl
  · simp only [UInt8.toNat_ofNat']
    omega

/-- **C127.** The queries of a discovery are numbered one after the other, from 0, modulo 2^16: whatever names are asked for, and whatever calls ask for nothing. -/
theorem C127_numbers {clock : Nat → Nat} {s : St} (h : History clock s) :
    ∀ (i : Nat) (Q : Query), s.sent[i]? = some Q → Numbered Q.datagram (i % 65536) := by
  have key : s.transactionId = s.sent.length % 65536 ∧ ∀ (i : Nat) (Q : Query), s.sent[i]? = some Q → Numbered Q.datagram (i % 65536) := by
    induction h with
    | start => exact ⟨rfl, fun i Q h => by simp [start] at h⟩
    | other _ h1 h2 h3 h4 ih => rw [h2, h4]; exact ih
    | @ask q addrs s _ ih =>
      unfold sendQueryMeant
      simp only
      split
      · exact ih
      · obtain ⟨h1, h2⟩ := ih
        refine ⟨?_, ?_⟩
        · simp only [List.length_append, List.length_cons, List.length_nil]
          omega
        · intro i Q hQ
          by_cases hi : i < s.sent.length
          · rw [List.getElem?_append_left hi] at hQ
            exact h2 i Q hQ
          · rw [List.getElem?_append_right (by omega)] at hQ
            have hi0 : i - s.sent.length = 0 := by
              cases hk : i - s.sent.length with
              | zero => rfl
              | succ k => rw [hk] at hQ; simp at hQ
            rw [hi0] at hQ
            simp only [List.getElem?_cons_zero, Option.some.injEq] at hQ
            subst hQ
            have hie : i = s.sent.length := by omega
            subst hie
            rw [← h1]
            refine makeQuery_numbered ?_ _ _
            rw [h1]; exact Nat.mod_lt _ (by decide)
  exact key.2

/-- **C127**, as the program does it, with any datagrams: two queries with the same number have a multiple of 65536 queries from the one to the other. -/
theorem C127_distinct {clock : Nat → Nat} {msgs : List Bytes} {s : St} (h : discover (sendQuery clock) msgs = .ok s) (i j : Nat) (Q Q' : Query) (n : Nat)
    (hi : s.sent[i]? = some Q) (hj : s.sent[j]? = some Q') (hn : Numbered Q.datagram n) (hn' : Numbered Q'.datagram n) : i % 65536 = j % 65536 := by
  have hh : History clock s := discover_history (fun _ _ _ _ h => sendQuery_ok h) h
  have same : ∀ {d : Bytes} {a b : Nat}, Numbered d a → Numbered d b → a = b := by
    rintro d a b ⟨_, hi, lo, r, rfl, ha⟩ ⟨_, hi', lo', r', he, hb⟩
    injection he with e1 he
    injection he with e2 _
    subst e1 e2
    omega
  rw [same (C127_numbers hh i Q hi) hn, same (C127_numbers hh j Q' hj) hn']

example : (∃ s, discover (sendQuery (fun _ => 0)) [] = .ok s ∧ s.sent.length = 1) ∧
    (sendQueryMeant (fun _ => 0) 1 [ascii "b"] (sendQueryMeant (fun _ => 0) 1 [ascii "a"] start)).sent.map (·.datagram.take 2) = [[0, 0], [0, 1]] := by
  refine ⟨?_, by decide +kernel⟩
  have h : (match discover (sendQuery (fun _ => 0)) [] with | .ok s => s.sent.length | _ => 0) = 1 := by decide +kernel
  cases hd : discover (sendQuery (fun _ => 0)) [] with
  | ok s => rw [hd] at h; exact ⟨s, rfl, h⟩
  | throws e => rw [hd] at h; cases h
  | ub => rw [hd] at h; cases h
  | hang => rw [hd] at h; cases h

end Verif.Discovery
