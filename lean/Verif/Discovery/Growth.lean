import Verif.Discovery.Names

/-!
# How long a decoded name can be (lib/ippdiscovery.cpp 67-96); property C116

A property of the model in `Model.lean`, for any datagram.
-/

namespace Verif.Discovery

open Verif.Text (joinString)

/-! ## Specification -/

namespace Spec

/-- The claim that no name in a datagram is longer than the datagram -/
def C116_name : Prop := ∀ (msg : Bytes) (pos p : Nat) (name : Bytes), getAddrStr msg pos = .ok (name, p) → name.length ≤ msg.length

/-- The claim that no name is longer than a domain name can be: 255 bytes as they are encoded (RFC 1035, section 2.3.4), 253 as text -/
def C116_domain : Prop := ∀ (msg : Bytes) (pos p : Nat) (name : Bytes), getAddrStr msg pos = .ok (name, p) → name.length ≤ 253

end Spec

open Verif.Discovery.Spec

/-! ## Proofs -/

/-- A name that is read from `pos`: the positions of its parts, in the order in which they are read, and its labels -/
inductive Walk (msg : Bytes) : Nat → List Nat → List Bytes → Prop
  | root {pos : Nat} : rd8 (msg.drop pos) = .ok (0, msg.drop (pos + 1)) → Walk msg pos [pos] []
  | reference {pos b ref p : Nat} {ps : List Nat} {addr : List Bytes} : rd8 (msg.drop pos) = .ok (b, msg.drop (pos + 1)) → b / 64 = 3 →
      get16 msg pos = .ok (ref, p) → Walk msg (ref % 4096) ps addr → Walk msg pos (pos :: ps) addr
  | label {pos b p : Nat} {l : Bytes} {ps : List Nat} {addr : List Bytes} : rd8 (msg.drop pos) = .ok (b, msg.drop (pos + 1)) → b ≠ 0 → b / 64 ≠ 3 →
      getLabel msg pos = .ok (l, p) → Walk msg p ps addr → Walk msg pos (pos :: ps) (l :: addr)

theorem walk_of {msg : Bytes} {pos : Nat} {seen : List Nat} {o : Outcome (List Bytes × Nat)} (h : GetAddr msg pos seen o) :
    ∀ {addr p}, o = .ok (addr, p) → ∃ ps, Walk msg pos ps addr := by
  induction h with
  | root h => intro _ _ e; cases e; exact ⟨_, .root h⟩
  | reference h1 h2 h3 h4 h5 ih =>
    intro _ _ e; cases e
    obtain ⟨ps, hw⟩ := ih rfl
    exact ⟨_, .reference h1 h2 h3 hw⟩
  | label h1 h2 h3 h4 h5 ih =>
    intro _ _ e; cases e
    obtain ⟨ps, hw⟩ := ih rfl
    exact ⟨_, .label h1 h2 h3 h4 hw⟩
  | _ => intro _ _ e; cases e

theorem walk_unique {msg : Bytes} {pos : Nat} {ps : List Nat} {addr : List Bytes} (h : Walk msg pos ps addr) :
    ∀ {ps' addr'}, Walk msg pos ps' addr' → ps = ps' := by
  induction h with
  | root h =>
    intro ps' addr' h'
    cases h' with
    | root => rfl
    | reference h1 h2 => rw [h] at h1; cases h1; exact absurd h2 (by decide)
    | label h1 h2 => rw [h] at h1; cases h1; exact absurd rfl h2
  | reference h1 h2 h3 h4 ih =>
    intro ps' addr' h'
    cases h' with
    | root g => rw [g] at h1; cases h1; exact absurd h2 (by decide)
    | reference g1 g2 g3 g4 => rw [h3] at g3; cases g3; rw [ih g4]
    | label g1 g2 g3 => rw [h1] at g1; cases g1; exact absurd h2 g3
  | label h1 h2 h3 h4 h5 ih =>
    intro ps' addr' h'
    cases h' with
    | root g => rw [g] at h1; cases h1; exact absurd rfl h2
    | reference g1 g2 => rw [h1] at g1; cases g1; exact absurd g2 h3
    | label g1 g2 g3 g4 g5 => rw [h4] at g4; cases g4; rw [ih g5]

/-- From each of the positions a name is read whose parts are among the later ones. -/
theorem walk_from {msg : Bytes} {pos : Nat} {ps : List Nat} {addr : List Bytes} (h : Walk msg pos ps addr) :
    ∀ {q}, q ∈ ps → q < msg.length ∧ ∃ ps' addr', Walk msg q ps' addr' ∧ ps'.length ≤ ps.length := by
  have hd : ∀ {pos b : Nat} {r}, rd8 (msg.drop pos) = .ok (b, r) → pos < msg.length := by
    intro pos b r h
    obtain ⟨x, hx, -⟩ := rd8_cons h
    have := congrArg List.length hx
    rw [List.length_drop, List.length_cons] at this
    omega
  induction h with
  | root h =>
    intro q hq
    cases List.mem_singleton.mp hq
    exact ⟨hd h, _, _, .root h, Nat.le_refl _⟩
  | reference h1 h2 h3 h4 ih =>
    intro q hq
    rcases List.mem_cons.mp hq with rfl | hq
    · exact ⟨hd h1, _, _, .reference h1 h2 h3 h4, Nat.le_refl _⟩
    · obtain ⟨l, ps', addr', hw, hle⟩ := ih hq
      exact ⟨l, ps', addr', hw, by rw [List.length_cons]; omega⟩
  | label h1 h2 h3 h4 h5 ih =>
    intro q hq
    rcases List.mem_cons.mp hq with rfl | hq
    · exact ⟨hd h1, _, _, .label h1 h2 h3 h4 h5, Nat.le_refl _⟩
    · obtain ⟨l, ps', addr', hw, hle⟩ := ih hq
      exact ⟨l, ps', addr', hw, by rw [List.length_cons]; omega⟩

/-- No position is visited twice. -/
theorem walk_nodup {msg : Bytes} {pos : Nat} {ps : List Nat} {addr : List Bytes} (h : Walk msg pos ps addr) : ps.Nodup := by
  induction h with
  | root h => simp
  | reference h1 h2 h3 h4 ih =>
    refine List.nodup_cons.mpr ⟨fun hm => ?_, ih⟩
    obtain ⟨-, ps', addr', hw, hle⟩ := walk_from h4 hm
    have := congrArg List.length (walk_unique (.reference h1 h2 h3 h4) hw)
    rw [List.length_cons] at this
    omega
  | label h1 h2 h3 h4 h5 ih =>
    refine List.nodup_cons.mpr ⟨fun hm => ?_, ih⟩
    obtain ⟨-, ps', addr', hw, hle⟩ := walk_from h5 hm
    have := congrArg List.length (walk_unique (.label h1 h2 h3 h4 h5) hw)
    rw [List.length_cons] at this
    omega

/-- There are fewer labels than parts, and no label has more than 191 bytes. -/
theorem walk_labels {msg : Bytes} {pos : Nat} {ps : List Nat} {addr : List Bytes} (h : Walk msg pos ps addr) :
    addr.length + 1 ≤ ps.length ∧ ∀ l ∈ addr, l.length ≤ 191 := by
  induction h with
  | root h => simp
  | reference h1 h2 h3 h4 ih => exact ⟨by rw [List.length_cons]; omega, ih.2⟩
  | @label pos b p l ps addr h1 h2 h3 h4 h5 ih =>
    refine ⟨by simp only [List.length_cons]; omega, fun x hx => ?_⟩
    rcases List.mem_cons.mp hx with rfl | hx
    · obtain ⟨y, g1, g2⟩ := Outcome.bind_eq_ok.mp h4
      obtain ⟨z, g3, g4⟩ := Outcome.bind_eq_ok.mp g2
      obtain ⟨w, g5, g6⟩ := Outcome.bind_eq_ok.mp g1
      rw [h1] at g5
      cases g5
      cases g6
      cases g4
      have := (rdBytes_ok (x := z.1) (r := z.2) g3).2
      obtain ⟨v, -, hv⟩ := rd8_cons h1
      have := v.toNat_lt
      omega
    · exact ih.2 x hx

theorem join_length {l : List Bytes} {k : Nat} (h : ∀ x ∈ l, x.length ≤ k) : (joinString [46] l).length ≤ (k + 1) * l.length := by
  have f : ∀ (l : List Bytes) (a : Bytes), (∀ x ∈ l, x.length ≤ k) → (l.foldl (fun res e => res ++ ([46] ++ e)) a).length ≤ a.length + (k + 1) * l.length := by
    intro l
    induction l with
    | nil => intro a _; simp
    | cons x l ih =>
      intro a h
      have i := ih (a ++ ([46] ++ x)) fun y hy => h y (List.mem_cons_of_mem _ hy)
      have hx := h x List.mem_cons_self
      rw [List.foldl_cons, List.length_cons, Nat.mul_add]
      simp only [List.length_append, List.length_cons, List.length_nil] at i
      omega
  cases l with
  | nil => simp [joinString]
  | cons x l =>
    have i := f l x fun y hy => h y (List.mem_cons_of_mem _ hy)
    have hx := h x List.mem_cons_self
    show (l.foldl (fun res e => res ++ ([46] ++ e)) x).length ≤ _
    rw [List.length_cons, Nat.mul_add]
    omega

/-! ## Property C116 -/

/-- **C116**, names: a name read from a datagram has fewer labels than the datagram has bytes, and is less than 192 times as long.
Missing: not longer than the datagram (`C116_name_false`). -/
theorem C116_name_partial (msg : Bytes) (pos p : Nat) (name : Bytes) (h : getAddrStr msg pos = .ok (name, p)) :
    ∃ labels, name = joinString [46] labels ∧ labels.length < msg.length ∧ (∀ l ∈ labels, l.length ≤ 191) ∧ name.length ≤ 192 * (msg.length - 1) := by
  obtain ⟨a, h1, h2⟩ := Outcome.bind_eq_ok.mp h
  cases h2
  have hr := getAddr_runs msg pos
  rw [h1] at hr
  obtain ⟨ps, hw⟩ := walk_of hr rfl
  have l1 := nodup_length_le (walk_nodup hw) fun q hq => (walk_from hw hq).1
  have l2 := walk_labels hw
  have l3 := join_length l2.2
  have l4 : (191 + 1) * a.1.length ≤ 192 * (msg.length - 1) := Nat.mul_le_mul_left _ (by omega)
  exact ⟨a.1, rfl, by omega, l2.2, by omega⟩

/-- **C116** fails for names: of these 13 bytes a name of 19 is read, because a reference leads into labels that have been read already. -/
theorem C116_name_false : ¬ C116_name := by
  intro h
  have := h [2, 2, 2, 2, 2, 2, 2, 2, 2, 0xc0, 1, 97, 0] 0 11 [2, 2, 46, 2, 2, 46, 2, 2, 46, 2, 2, 46, 2, 2, 46, 2, 0xc0, 46, 97] (by decide +kernel)
  exact absurd this (by decide)

/-- **C116** fails for names: one is read that is longer than any domain name. -/
theorem C116_domain_false : ¬ C116_domain := by
  intro h
  have := h ((List.replicate 200 [1, 97]).flatten ++ [0]) 0 401 (joinString [46] (List.replicate 200 [97])) (by decide +kernel)
  exact absurd this (by decide +kernel)

end Verif.Discovery
