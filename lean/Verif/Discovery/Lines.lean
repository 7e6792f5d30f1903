import Verif.Discovery.Tool

/-! # The lines that ippdiscover writes (C123) -/

namespace Verif.Discovery

open Verif.Discovery.Spec Verif.Tools

/-! ## Specification -/

namespace Spec

/-- The part of an address that tells where to connect to, by RFC 3986: from behind `://` to the next slash, question mark or number sign -/
def authority (u : Bytes) : Bytes := ((u.dropWhile (· ≠ 58)).drop 3).takeWhile (fun b => decide (b ≠ 47 ∧ b ≠ 63 ∧ b ≠ 35))

/-- The address leads to this host, with or without a port. -/
def Leads (u host : Bytes) : Prop := (ascii "ipp://" <+: u ∨ ascii "ipps://" <+: u) ∧ ∃ port, authority u = host ++ port ∧ (port = [] ∨ ∃ n, port = 58 :: number n)

/-- The lines of a text -/
def LinesOf (text : Bytes) (ls : List Bytes) : Prop := text = lines ls ∧ ∀ l ∈ ls, 10 ∉ l

end Spec

/-! ## Where the addresses lead to -/

/-- The addresses that are known are IPv4 addresses. -/
def AsQuad (s : St) : Prop := ∀ p ∈ s.as, ∀ ip ∈ p.2, ∃ n, ip = ip4str n

theorem readRecord_quad (msg : Bytes) (r : Reading) (h : AsQuad r.st) : AsQuad (readRecord msg r).2.st := by
  unfold readRecord
  simp only
  repeat' split
  all_goals first
    | exact h
    | (unfold AsQuad; rw [readTxts_as]; exact h)
    | skip
  intro p hp ip hip
  rcases mem_assign hp with rfl | hp
  · rcases List.mem_append.1 hip with hip | hip
    · cases hg : KMap.get? r.st.as _ with
      | none => rw [hg] at hip; cases hip
      | some ips => rw [hg] at hip; exact h _ (KMap.mem_of_get? hg) ip hip
    · exact ⟨_, List.mem_singleton.1 hip⟩
  · exact h p hp ip hip

theorem readRecords_quad (msg : Bytes) : ∀ (n : Nat) (r : Reading), AsQuad r.st → AsQuad (readRecords msg n r).st := by
  intro n
  induction n with
  | zero => intro r h; exact h
  | succ n ih =>
    intro r h
    unfold readRecords
    have h' := readRecord_quad msg r h
    split
    · rename_i r' hr; rw [hr] at h'; exact ih r' h'
    · rename_i r' hr; rw [hr] at h'; exact h'

theorem readResponse_quad (msg : Bytes) (s : St) (h : AsQuad s) : AsQuad (readResponse msg s).st := by
  unfold readResponse
  simp only
  split
  · exact readRecords_quad _ _ _ h
  · exact h

/-- An address made of a known one -/
def Formed (a : Bytes) : Prop := ∃ port n rp, a = makeIppsAddr port (ip4str n) rp ∨ a = makeIppAddr port (ip4str n) rp

theorem reportIpps_formed (port : Nat) (rp : Bytes) : ∀ (ips : List Bytes) (p : St × List (Bytes × Bytes)), (∀ ip ∈ ips, ∃ n, ip = ip4str n) → (∀ a ∈ p.1.reported, Formed a) →
    ∀ a ∈ (reportIpps port rp ips p).1.reported, Formed a := by
  intro ips
  induction ips with
  | nil => intro p _ h; exact h
  | cons ip ips ih =>
    intro p hp h
    have hp' : ∀ ip ∈ ips, ∃ n, ip = ip4str n := fun i hi => hp i (List.mem_cons_of_mem _ hi)
    unfold reportIpps
    split
    · exact ih p hp' h
    · refine ih _ hp' ?_
      intro a ha
      rcases List.mem_append.1 ha with ha | ha
      · exact h a ha
      · obtain ⟨n, hn⟩ := hp ip List.mem_cons_self
        exact ⟨port, n, rp, .inl (by rw [List.mem_singleton.1 ha, hn])⟩

theorem reportIpp_formed (port : Nat) (rp : Bytes) (secure : List (Bytes × Bytes)) : ∀ (ips : List Bytes) (s : St), (∀ ip ∈ ips, ∃ n, ip = ip4str n) → (∀ a ∈ s.reported, Formed a) →
    ∀ a ∈ (reportIpp port rp secure ips s).reported, Formed a := by
  intro ips
  induction ips with
  | nil => intro p _ h; exact h
  | cons ip ips ih =>
    intro p hp h
    have hp' : ∀ ip ∈ ips, ∃ n, ip = ip4str n := fun i hi => hp i (List.mem_cons_of_mem _ hi)
    unfold reportIpp
    split
    · exact ih p hp' h
    · refine ih _ hp' ?_
      intro a ha
      rcases List.mem_append.1 ha with ha | ha
      · exact h a ha
      · obtain ⟨n, hn⟩ := hp ip List.mem_cons_self
        exact ⟨port, n, rp, .inr (by rw [List.mem_singleton.1 ha, hn])⟩

theorem resolve_quad {s : St} (h : AsQuad s) {it : Bytes} {port : Nat} {ips : List Bytes} {rp : Bytes} (hr : resolve s it = some (port, ips, rp)) :
    ∀ ip ∈ ips, ∃ n, ip = ip4str n := by
  unfold resolve at hr
  split at hr
  · split at hr
    · rename_i hg
      cases hr
      exact h _ (KMap.mem_of_get? hg)
    · cases hr
  · cases hr

theorem updateIpps_formed {s : St} (hs : AsQuad s) : ∀ (its : List Bytes) (p : St × List (Bytes × Bytes)), SameIn s p.1 → (∀ a ∈ p.1.reported, Formed a) →
    ∀ a ∈ (updateIpps its p).1.reported, Formed a := by
  intro its
  induction its with
  | nil => intro p _ h; exact h
  | cons it its ih =>
    intro p hsame h
    unfold updateIpps
    split
    · rename_i port ips rp hr
      rw [hsame.resolve] at hr
      exact ih _ (hsame.trans (reportIpps_same _ _ _ _)) (reportIpps_formed port rp ips p (resolve_quad hs hr) h)
    · exact ih p hsame h

theorem updateIpp_formed {s : St} (hs : AsQuad s) (secure : List (Bytes × Bytes)) : ∀ (its : List Bytes) (s' : St), SameIn s s' → (∀ a ∈ s'.reported, Formed a) →
    ∀ a ∈ (updateIpp secure its s').reported, Formed a := by
  intro its
  induction its with
  | nil => intro p _ h; exact h
  | cons it its ih =>
    intro p hsame h
    unfold updateIpp
    split
    · rename_i port ips rp hr
      rw [hsame.resolve] at hr
      exact ih _ (hsame.trans (reportIpp_same _ _ _ _ _)) (reportIpp_formed port rp secure ips p (resolve_quad hs hr) h)
    · exact ih p hsame h

theorem discover_formed {clock : Nat → Nat} {msgs : List Bytes} {s : St} (h : discover (sendQuery clock) msgs = .ok s) : AsQuad s ∧ ∀ a ∈ s.reported, Formed a := by
  refine discover_ind' (P := fun s => AsQuad s ∧ ∀ a ∈ s.reported, Formed a) ⟨nofun, nofun⟩ (fun msg s hp => ⟨readResponse_quad msg s hp.1, ?_⟩) (fun _ _ _ h => h) ?_ ?_ h
  · rw [(readResponse_same msg s).2.1]; exact hp.2
  · intro q a s s' h hp
    unfold AsQuad
    rw [sendQuery_ok h, (meant_same clock q a s).1, (meant_same clock q a s).2.2.1]; exact hp
  · intro s hp
    refine ⟨?_, ?_⟩
    · unfold AsQuad
      rw [(update_same s).2.2.2.2.2.1]; exact hp.1
    · exact updateIpp_formed hp.1 _ _ _ (updateIpps_same s.ippsPtrs (s, [])) (updateIpps_formed hp.1 _ _ (.refl _) hp.2)

theorem ip4str_quad (n : Nat) : ∃ w x y z : UInt8, ip4str n = quad w x y z := by
  have e : ∀ k, (UInt8.ofNat (k % 256)).toNat = k % 256 := fun k => by simp
  exact ⟨.ofNat (n / 16777216 % 256), .ofNat (n / 65536 % 256), .ofNat (n / 256 % 256), .ofNat (n % 256), by
    unfold ip4str quad number decimal
    simp only [e]⟩

theorem number_digits (n : Nat) : ∀ b ∈ number n, 48 ≤ b ∧ b ≤ 57 := decimal_digits n

theorem quad_digits {w x y z : UInt8} : ∀ b ∈ quad w x y z, 46 ≤ b ∧ b ≤ 57 ∧ b ≠ 47 := by
  have hn : ∀ k, ∀ b ∈ number k, 46 ≤ b ∧ b ≤ 57 ∧ b ≠ 47 := by
    intro k b hb
    obtain ⟨h1, h2⟩ := number_digits k b hb
    rw [UInt8.le_iff_toNat_le] at h1
    refine ⟨UInt8.le_iff_toNat_le.mpr (Nat.le_trans (by decide) h1), h2, ?_⟩
    rintro rfl
    revert h1; decide
  have hd : ∀ b ∈ ([46] : Bytes), 46 ≤ b ∧ b ≤ 57 ∧ b ≠ 47 := by decide
  intro b hb
  unfold quad at hb
  simp only [List.mem_append] at hb
  rcases hb with (((((hb | hb) | hb) | hb) | hb) | hb) | hb
  · exact hn _ b hb
  · exact hd b hb
  · exact hn _ b hb
  · exact hd b hb
  · exact hn _ b hb
  · exact hd b hb
  · exact hn _ b hb

/-- What stands between the scheme and the path -/
theorem place_plain (w x y z : UInt8) (usual port : Nat) : ∀ b ∈ quad w x y z ++ (if port = usual then [] else ascii ":" ++ number port), 46 ≤ b ∧ b ≤ 58 ∧ b ≠ 47 := by
  intro b hb
  have up : ∀ {b : UInt8}, b ≤ 57 → b ≤ 58 := fun h => UInt8.le_iff_toNat_le.mpr (Nat.le_trans (UInt8.le_iff_toNat_le.mp h) (by decide))
  rcases List.mem_append.mp hb with hb | hb
  · obtain ⟨h1, h2, h3⟩ := quad_digits b hb
    exact ⟨h1, up h2, h3⟩
  · split at hb
    · cases hb
    · rcases List.mem_append.mp hb with hb | hb
      · have : ∀ b ∈ ascii ":", 46 ≤ b ∧ b ≤ 58 ∧ b ≠ 47 := by decide
        exact this b hb
      · obtain ⟨h1, h2⟩ := number_digits port b hb
        rw [UInt8.le_iff_toNat_le] at h1
        refine ⟨UInt8.le_iff_toNat_le.mpr (Nat.le_trans (by decide) h1), up h2, ?_⟩
        rintro rfl
        revert h1; decide

theorem uri_split (scheme : Bytes) (usual port : Nat) (ip rp : Bytes) :
    uri scheme usual port ip rp = scheme ++ (58 :: 47 :: 47 :: ((ip ++ (if port = usual then [] else ascii ":" ++ number port)) ++ 47 :: rp)) := by
  unfold uri
  have h1 : ascii "://" = [58, 47, 47] := by decide
  have h2 : ascii "/" = [47] := by decide
  rw [h1, h2]
  simp

theorem uri_scheme (scheme : Bytes) (usual port : Nat) (ip rp : Bytes) : scheme ++ [58, 47, 47] <+: uri scheme usual port ip rp := by
  rw [uri_split]
  exact ⟨(ip ++ (if port = usual then [] else ascii ":" ++ number port)) ++ 47 :: rp, by simp⟩

/-- The path does not change where an address leads to. -/
theorem authority_uri (scheme : Bytes) (hs : (58 : UInt8) ∉ scheme) (usual port : Nat) (w x y z : UInt8) (rp : Bytes) :
    authority (uri scheme usual port (quad w x y z) rp) = quad w x y z ++ (if port = usual then [] else ascii ":" ++ number port) := by
  unfold authority
  rw [uri_split, List.dropWhile_append_of_pos, List.dropWhile_cons_of_neg]
  · simp only [List.drop_succ_cons, List.drop_zero]
    rw [List.takeWhile_append_of_pos, List.takeWhile_cons_of_neg, List.append_nil]
    · decide
    · intro b hb
      obtain ⟨h1, h2, h3⟩ := place_plain w x y z usual port b hb
      refine decide_eq_true ⟨h3, ?_, ?_⟩ <;> rintro rfl
      · revert h2; decide
      · revert h1; decide
  · decide
  · intro b hb
    simp only [decide_eq_true_eq]
    rintro rfl
    exact hs hb

theorem leads_uri {a : Bytes} {w x y z : UInt8} {port : Nat} {rp : Bytes} (h : a = ippsUri port (quad w x y z) rp ∨ a = ippUri port (quad w x y z) rp) : Leads a (quad w x y z) := by
  refine ⟨?_, ?_⟩
  · rcases h with rfl | rfl
    · right; rw [show ascii "ipps://" = ascii "ipps" ++ [58, 47, 47] by decide]; exact uri_scheme _ _ _ _ _
    · left; rw [show ascii "ipp://" = ascii "ipp" ++ [58, 47, 47] by decide]; exact uri_scheme _ _ _ _ _
  · rcases h with rfl | rfl
    · refine ⟨_, authority_uri _ (by decide) _ _ _ _ _ _ _, ?_⟩
      by_cases hp : port = 443
      · rw [if_pos hp]; exact .inl rfl
      · rw [if_neg hp]; exact .inr ⟨port, rfl⟩
    · refine ⟨_, authority_uri _ (by decide) _ _ _ _ _ _ _, ?_⟩
      by_cases hp : port = 631
      · rw [if_pos hp]; exact .inl rfl
      · rw [if_neg hp]; exact .inr ⟨port, rfl⟩

theorem formed_leads {a : Bytes} (h : Formed a) : ∃ w x y z : UInt8, Leads a (quad w x y z) := by
  obtain ⟨port, n, rp, h⟩ := h
  obtain ⟨w, x, y, z, hq⟩ := ip4str_quad n
  rw [hq, makeIppsAddr_eq, makeIppAddr_eq] at h
  exact ⟨w, x, y, z, leads_uri h⟩

theorem addresses_quad {rs : List Record} {target ip : Bytes} (h : ip ∈ addresses rs target) : ∃ w x y z : UInt8, ip = quad w x y z := by
  unfold addresses at h
  obtain ⟨r, -, hr⟩ := List.mem_filterMap.mp h
  split at hr
  · split at hr
    · cases hr; exact ⟨_, _, _, _, rfl⟩
    · cases hr
  · cases hr

/-! ## Lines -/

theorem linesOf_unique {text : Bytes} : ∀ {ls ls' : List Bytes}, LinesOf text ls → LinesOf text ls' → ls = ls' := by
  intro ls
  induction ls generalizing text with
  | nil =>
    rintro ls' ⟨h1, -⟩ ⟨h2, -⟩
    cases ls' with
    | nil => rfl
    | cons l ls' => rw [h1] at h2; simp [lines] at h2
  | cons l ls ih =>
    rintro ls' ⟨h1, g1⟩ ⟨h2, g2⟩
    cases ls' with
    | nil => rw [h1] at h2; simp [lines] at h2
    | cons l' ls' =>
      rw [h1] at h2
      have e : ∀ (a : Bytes) (as : List Bytes), lines (a :: as) = a ++ 10 :: lines as := by intro a as; simp [lines]
      rw [e, e] at h2
      have t : ∀ (a : Bytes) (r : Bytes), (10 : UInt8) ∉ a → (a ++ 10 :: r).takeWhile (· ≠ 10) = a ∧ (a ++ 10 :: r).dropWhile (· ≠ 10) = 10 :: r := by
        intro a r ha
        have hp : ∀ x ∈ a, decide (x ≠ 10) = true := fun x hx => decide_eq_true (fun h => ha (h ▸ hx))
        constructor
        · rw [List.takeWhile_append_of_pos hp, List.takeWhile_cons_of_neg (by decide), List.append_nil]
        · rw [List.dropWhile_append_of_pos hp, List.dropWhile_cons_of_neg (by decide)]
      have a1 := t l (lines ls) (g1 l List.mem_cons_self)
      have a2 := t l' (lines ls') (g2 l' List.mem_cons_self)
      rw [h2] at a1
      have el : l = l' := a1.1.symm.trans a2.1
      have er : lines ls = lines ls' := by
        have := a1.2.symm.trans a2.2
        exact List.cons.inj this |>.2
      rw [el, ih ⟨rfl, fun x hx => g1 x (List.mem_cons_of_mem _ hx)⟩ ⟨er, fun x hx => g2 x (List.mem_cons_of_mem _ hx)⟩]

theorem uri_no_feed {scheme : Bytes} (hs : (10 : UInt8) ∉ scheme) {usual port : Nat} {w x y z : UInt8} {rp : Bytes} (hr : (10 : UInt8) ∉ rp) :
    (10 : UInt8) ∉ uri scheme usual port (quad w x y z) rp := by
  rw [uri_split]
  intro h
  rcases List.mem_append.mp h with h | h
  · exact hs h
  · simp only [List.mem_cons] at h
    rcases h with h | h | h | h
    · revert h; decide
    · revert h; decide
    · revert h; decide
    · rcases List.mem_append.mp h with h | h
      · have := (place_plain w x y z usual port 10 h).1
        revert this; decide
      · rcases List.mem_cons.mp h with h | h
        · revert h; decide
        · exact hr h

theorem values_take {rss : List (List Record)} {j : Nat} {it key v : Bytes} (h : v ∈ values (rss.take j).flatten it key) : v ∈ values rss.flatten it key := by
  unfold values texts at h ⊢
  obtain ⟨t, ht, hv⟩ := List.mem_filterMap.mp h
  obtain ⟨r, hr, ht⟩ := List.mem_flatMap.mp ht
  obtain ⟨rs, hrs, hr⟩ := List.mem_flatten.mp hr
  exact List.mem_filterMap.mpr ⟨t, List.mem_flatMap.mpr ⟨r, List.mem_flatten.mpr ⟨rs, List.mem_of_mem_take hrs, hr⟩, ht⟩, hv⟩

/-! ## The claims -/

/-- **C123, where the addresses lead to.** Whatever arrives, of whatever length and however damaged: each address that is given to the callback is one with the scheme `ipp` or `ipps`
that leads to an IPv4 address. No path, name or port changes that, for instance by a slash, a colon or an @. -/
theorem C123_leads {clock : Nat → Nat} {msgs : List Bytes} {s : St} (h : discover (sendQuery clock) msgs = .ok s) : ∀ a ∈ s.reported, ∃ w x y z : UInt8, Leads a (quad w x y z) :=
  fun a ha => formed_leads ((discover_formed h).2 a ha)

/-- **C123, for responses of up to 4096 bytes with no line feed in a path.** Each line of the output is the address of a printer that was announced, and leads to an address that was
announced for its host. Missing: the line feed (see `C123_false`), and longer responses. -/
theorem C123_lines_partial {clock : Nat → Nat} {msgs : List Bytes} {name : Bytes} {args : List Bytes} (hp : ∀ a ∈ args, a ∈ verboseWords) {rss : List (List Record)}
    (hr : Responses msgs rss) (hl : ∀ m ∈ msgs, m.length ≤ 4096) (hf : ∀ it, ∀ v ∈ values rss.flatten it (ascii "rp"), (10 : UInt8) ∉ v) {c : Nat}
    (h : (ippdiscover clock msgs name args).out = .ok c) :
    (∃ ls, LinesOf (ippdiscover clock msgs name args).stdout ls) ∧ ∀ ls, LinesOf (ippdiscover clock msgs name args).stdout ls → ls.Nodup ∧
      ∀ l ∈ ls, ∃ j it port ip path, ((Printer (rss.take j).flatten ippsService it port ip path ∧ l = ippsUri port ip path) ∨
        (Printer (rss.take j).flatten ippService it port ip path ∧ l = ippUri port ip path)) ∧ Leads l ip := by
  obtain ⟨-, found, h1, h2, h3⟩ := C96_shown_partial hp hr hl h
  have h4 : ∀ a ∈ found, (10 : UInt8) ∉ a := by
    intro a ha
    obtain ⟨j, it, port, ip, path, h⟩ := h3 a ha
    rcases h with ⟨⟨-, t, -, hi, hv⟩, rfl⟩ | ⟨⟨-, t, -, hi, hv⟩, rfl⟩
    all_goals
      obtain ⟨w, x, y, z, rfl⟩ := addresses_quad hi
      exact uri_no_feed (by decide) (hf it path (values_take (List.mem_of_getLast? hv)))
  refine ⟨⟨found, h1, h4⟩, fun ls hls => ?_⟩
  rw [linesOf_unique hls ⟨h1, h4⟩]
  refine ⟨h2, fun l hm => ?_⟩
  obtain ⟨j, it, port, ip, path, h⟩ := h3 l hm
  refine ⟨j, it, port, ip, path, h, ?_⟩
  have hq : ∃ w x y z : UInt8, ip = quad w x y z := by
    rcases h with ⟨⟨-, t, -, hi, -⟩, -⟩ | ⟨⟨-, t, -, hi, -⟩, -⟩ <;> exact addresses_quad hi
  obtain ⟨w, x, y, z, rfl⟩ := hq
  exact leads_uri (h.imp (·.2) (·.2))

/-- The response of FollowUp.lean meets the hypotheses, and its line is shown. -/
example : Responses [exampleResponse] [exampleRecords] ∧ (∀ m ∈ [exampleResponse], m.length ≤ 4096) ∧
    (∀ r ∈ exampleRecords, ∀ it, it = dotted r.name → ∀ v ∈ values exampleRecords it (ascii "rp"), (10 : UInt8) ∉ v) ∧
    (ippdiscover (fun _ => 0) [exampleResponse] (ascii "ippdiscover") []).out = .ok 0 ∧
    LinesOf (ippdiscover (fun _ => 0) [exampleResponse] (ascii "ippdiscover") []).stdout [ascii "ipps://10.0.0.9:8443/ipp/print"] :=
  ⟨.cons example_response .nil, by decide +kernel, by
    intro r hr it hi
    subst hi
    revert r
    decide +kernel, by decide +kernel, by decide +kernel, by decide +kernel⟩

/-- The response of FollowUp.lean with a path of the same length in which there is a line feed. -/
def feedResponse : Bytes :=
  be16 0 ++ be16 0x8400 ++ be16 0 ++ be16 1 ++ be16 0 ++ be16 3 ++
  [5] ++ ascii "_ipps" ++ [4] ++ ascii "_tcp" ++ [5] ++ ascii "local" ++ [0] ++ be16 12 ++ be16 1 ++ be32 120 ++ be16 4 ++ [1, 80, 192, 12] ++
  [192, 40] ++ be16 33 ++ be16 1 ++ be32 120 ++ be16 10 ++ be16 0 ++ be16 0 ++ be16 8443 ++ [1, 104, 192, 23] ++
  [192, 40] ++ be16 16 ++ be16 1 ++ be32 120 ++ be16 23 ++ [22] ++ ascii "rp=a" ++ [10] ++ ascii "ipps://6.6.6.6/b/" ++
  [192, 62] ++ be16 1 ++ be16 1 ++ be32 120 ++ be16 4 ++ [10, 0, 0, 9]

def feedRecords : List Record :=
  [⟨[ascii "_ipps", ascii "_tcp", ascii "local"], .ptr [ascii "P", ascii "_ipps", ascii "_tcp", ascii "local"]⟩,
   ⟨[ascii "P", ascii "_ipps", ascii "_tcp", ascii "local"], .srv 0 0 8443 [ascii "h", ascii "local"]⟩,
   ⟨[ascii "P", ascii "_ipps", ascii "_tcp", ascii "local"], .txt [ascii "rp=a" ++ [10] ++ ascii "ipps://6.6.6.6/b/"]⟩,
   ⟨[ascii "h", ascii "local"], .a 10 0 0 9⟩]

theorem feed_response : Response feedResponse feedRecords := by
  have local23 : NameAt feedResponse 23 [ascii "local"] 30 :=
    .label (l := ascii "local") (by decide +kernel) (by decide +kernel) (at_of (by decide +kernel) (by decide +kernel))
      (.root (at_of (by decide +kernel) (by decide +kernel)))
  have service : NameAt feedResponse 12 [ascii "_ipps", ascii "_tcp", ascii "local"] 30 :=
    .label (l := ascii "_ipps") (by decide +kernel) (by decide +kernel) (at_of (by decide +kernel) (by decide +kernel))
      (.label (l := ascii "_tcp") (by decide +kernel) (by decide +kernel) (at_of (by decide +kernel) (by decide +kernel)) local23)
  have printer : NameAt feedResponse 40 [ascii "P", ascii "_ipps", ascii "_tcp", ascii "local"] 44 :=
    .label (l := ascii "P") (by decide +kernel) (by decide +kernel) (at_of (by decide +kernel) (by decide +kernel))
      (.reference (ref := 12) (by decide) (by decide +kernel) (at_of (by decide +kernel) (by decide +kernel)) service)
  have host : NameAt feedResponse 62 [ascii "h", ascii "local"] 66 :=
    .label (l := ascii "h") (by decide +kernel) (by decide +kernel) (at_of (by decide +kernel) (by decide +kernel))
      (.reference (ref := 23) (by decide) (by decide +kernel) (at_of (by decide +kernel) (by decide +kernel)) local23)
  refine ⟨0, 0x8400, 0, 1, 0, 3, 12, by decide, by decide, by decide, by decide, at_of (by decide +kernel) (by decide +kernel), .zero, ?_, rfl⟩
  refine .cons (stop := 44) ⟨30, 12, 4, service, ⟨by decide, 1, 120, at_of (by decide +kernel) (by decide +kernel)⟩, .ptr printer, rfl⟩ ?_
  refine .cons (stop := 66) ⟨46, 33, 10, .reference (ref := 40) (by decide) (by decide) (at_of (by decide +kernel) (by decide +kernel)) printer,
    ⟨by decide, 1, 120, at_of (by decide +kernel) (by decide +kernel)⟩, .srv (by decide) (at_of (by decide +kernel) (by decide +kernel)) host, rfl⟩ ?_
  refine .cons (stop := 101) ⟨68, 16, 23, .reference (ref := 40) (by decide) (by decide) (at_of (by decide +kernel) (by decide +kernel)) printer,
    ⟨by decide, 1, 120, at_of (by decide +kernel) (by decide +kernel)⟩,
    .txt (by decide +kernel) (at_of (by decide +kernel) (by decide +kernel)) (by decide +kernel), rfl⟩ ?_
  exact .cons (stop := 117) ⟨103, 1, 4, .reference (ref := 62) (by decide) (by decide) (at_of (by decide +kernel) (by decide +kernel)) host,
    ⟨by decide, 1, 120, at_of (by decide +kernel) (by decide +kernel)⟩, .a (at_of (by decide +kernel) (by decide +kernel)), rfl⟩ .nil

/-- **C123 is false of the code.** A well-formed response of 117 bytes announces one printer at 10.0.0.9, with a line feed in its path. The output has two lines, and the second is an
address that leads to 6.6.6.6, of which no record tells. -/
theorem C123_false : ∃ (msgs : List Bytes) (rss : List (List Record)) (l : Bytes) (ls : List Bytes), Responses msgs rss ∧ (∀ m ∈ msgs, m.length ≤ 4096) ∧
    (ippdiscover (fun _ => 0) msgs (ascii "ippdiscover") []).out = .ok 0 ∧ LinesOf (ippdiscover (fun _ => 0) msgs (ascii "ippdiscover") []).stdout ls ∧ l ∈ ls ∧
    Leads l (quad 6 6 6 6) ∧ ∀ rs ∈ rss, ∀ r ∈ rs, ∀ a b c d, r.data = .a a b c d → (a, b, c, d) = (10, 0, 0, 9) := by
  refine ⟨[feedResponse], [feedRecords], ascii "ipps://6.6.6.6/b/", [ascii "ipps://10.0.0.9:8443/a", ascii "ipps://6.6.6.6/b/"], .cons feed_response .nil, by decide +kernel,
    by decide +kernel, ⟨by decide +kernel, by decide +kernel⟩, by decide +kernel, ⟨.inr ⟨ascii "6.6.6.6/b/", by decide +kernel⟩, [], by decide +kernel, .inl rfl⟩, ?_⟩
  intro rs hrs r hr a b c d hd
  rw [List.mem_singleton.mp hrs] at hr
  simp only [feedRecords, List.mem_cons, List.not_mem_nil, or_false] at hr
  rcases hr with rfl | rfl | rfl | rfl <;> cases hd
  rfl

end Verif.Discovery
