import Verif.Printer.Connect
import Verif.Printer.SupplyProps
import Verif.Printer.ManageProps
import Verif.Discovery.FollowUp

/-! # Where requests go (C85), and whether certificates are checked (C86) -/

namespace Verif.Printer

open Ipp Job

namespace Spec

/-- A number in decimal digits. -/
def Numeral (d : Bytes) (n : Nat) : Prop := d ≠ [] ∧ (∀ b ∈ d, 48 ≤ b ∧ b ≤ 57) ∧ digitsVal d = n

/-- The part of an address that is a host: not empty, and without `:`, `/`, `?`, `#` and `@`. -/
def Host (h : Bytes) : Prop := h ≠ [] ∧ ∀ b ∈ h, b ≠ 58 ∧ b ≠ 47 ∧ b ≠ 63 ∧ b ≠ 35 ∧ b ≠ 64

/-- The address `scheme://host[:port]/path` (RFC 3986); without a port it is the one that is usual for the scheme. -/
def Points (url scheme : Bytes) (usual : Nat) (host : Bytes) (port : Nat) (path : Bytes) : Prop :=
  Host host ∧ ∃ at_, ((at_ = [] ∧ port = usual) ∨ ∃ d, at_ = 58 :: d ∧ Numeral d port) ∧ url = scheme ++ ascii "://" ++ host ++ at_ ++ 47 :: path

/-- Where an HTTP client connects to for a URL (RFC 9110, 4.2): host, port, whether with TLS, and the path that is asked for. -/
def Reaches (url : Bytes) (tls : Bool) (host : Bytes) (port : Nat) (path : Bytes) : Prop :=
  if tls then Points url (ascii "https") 443 host port path else Points url (ascii "http") 80 host port path

end Spec

open Verif.Printer.Spec

theorem decimal_dec (n : Nat) : Discovery.decimal n = dec n := by
  have e : ∀ n, Discovery.decimal n = (Nat.toDigits 10 n).map (fun c => UInt8.ofNat c.toNat) := by
    intro n
    have : (toString n).toList = Nat.toDigits 10 n := by simp [toString, Nat.repr]
    unfold Discovery.decimal ascii
    rw [this]
  have digit : ∀ k : Fin 10, UInt8.ofNat (Nat.digitChar k.1).toNat = UInt8.ofNat (48 + k.1) := by decide
  induction n using Nat.strongRecOn with
  | _ n ih =>
    rw [e, Nat.toDigits_eq_if (by decide)]
    unfold dec
    split
    · rename_i h; simp [digit ⟨n, h⟩]
    · rename_i h
      rw [List.map_append, ← e, ih (n / 10) (by omega)]
      simp [digit ⟨n % 10, by omega⟩]

theorem number_numeral (n : Nat) : Numeral (Discovery.Spec.number n) n := by
  have h : Discovery.Spec.number n = dec n := decimal_dec n
  exact ⟨h ▸ dec_ne_nil n, Discovery.decimal_digits n, by rw [h, digitsVal_dec]⟩

theorem takeWhile_stop {α : Type} {p : α → Bool} {a b : List α} {x : α} (ha : ∀ y ∈ a, p y = true) (hx : p x = false) :
    (a ++ x :: b).takeWhile p = a ∧ (a ++ x :: b).dropWhile p = x :: b := by
  constructor
  · rw [List.takeWhile_append_of_pos ha, List.takeWhile_cons_of_neg (by simp [hx]), List.append_nil]
  · rw [List.dropWhile_append_of_pos ha, List.dropWhile_cons_of_neg (by simp [hx])]

theorem host_split {h at_ p : Bytes} (hh : Host h) (ha : at_ = [] ∨ ∃ d, at_ = 58 :: d) :
    (h ++ (at_ ++ 47 :: p)).takeWhile (fun b => b != 58 && b != 47) = h ∧ (h ++ (at_ ++ 47 :: p)).dropWhile (fun b => b != 58 && b != 47) = at_ ++ 47 :: p := by
  have hp : ∀ y ∈ h, (fun b : UInt8 => b != 58 && b != 47) y = true := fun y hy => by
    have := hh.2 y hy
    simp [this.1, this.2.1]
  rcases ha with rfl | ⟨d, rfl⟩
  · exact takeWhile_stop hp rfl
  · exact takeWhile_stop hp rfl

theorem points_unique {scheme url : Bytes} {usual : Nat} {h h' p p' : Bytes} {n n' : Nat} (hx : Points url scheme usual h n p) (hy : Points url scheme usual h' n' p') :
    h = h' ∧ n = n' ∧ p = p' := by
  obtain ⟨hh, a, ha, e⟩ := hx
  obtain ⟨hh', a', ha', e'⟩ := hy
  have opening : ∀ {a : Bytes} {n : Nat}, ((a = [] ∧ n = usual) ∨ ∃ d, a = 58 :: d ∧ Numeral d n) → a = [] ∨ ∃ d, a = 58 :: d := by
    rintro a n (h | ⟨d, h, _⟩)
    · exact .inl h.1
    · exact .inr ⟨d, h⟩
  rw [e] at e'
  simp only [List.append_assoc] at e'
  have e' := List.append_cancel_left (List.append_cancel_left e')
  have s1 := host_split (p := p) hh (opening ha)
  have s2 := host_split (p := p') hh' (opening ha')
  rw [← e', s1.1] at s2
  obtain ⟨rfl, s2⟩ := s2
  rw [s1.2] at s2
  have sl : ∀ {d : Bytes} {n : Nat} (p : Bytes), Numeral d n → (d ++ 47 :: p).takeWhile (fun b => b != 47) = d ∧ (d ++ 47 :: p).dropWhile (fun b => b != 47) = 47 :: p := by
    intro d n p hd
    refine takeWhile_stop (fun y hy => ?_) rfl
    have := hd.2.1 y hy
    simp only [bne_iff_ne, ne_eq]
    rintro rfl
    exact absurd this (by decide)
  rcases ha with ⟨rfl, rfl⟩ | ⟨d, rfl, hd⟩ <;> rcases ha' with ⟨rfl, rfl⟩ | ⟨d', rfl, hd'⟩
  · injection s2 with _ s2
    exact ⟨rfl, rfl, s2⟩
  · injection s2 with s3 _
    exact absurd s3 (by decide)
  · injection s2 with s3 _
    exact absurd s3 (by decide)
  · injection s2 with _ s3
    have s3 : d ++ 47 :: p = d' ++ 47 :: p' := s3
    have t1 := sl p hd
    have t2 := sl p' hd'
    rw [← s3, t1.1, t1.2] at t2
    obtain ⟨rfl, t2⟩ := t2
    injection t2 with _ t2
    exact ⟨rfl, hd.2.2.symm.trans hd'.2.2, t2⟩

/-- A URL leads to one place only. -/
theorem reaches_unique {url : Bytes} {t t' : Bool} {h h' p p' : Bytes} {n n' : Nat} (hx : Reaches url t h n p) (hy : Reaches url t' h' n' p') :
    t = t' ∧ h = h' ∧ n = n' ∧ p = p' := by
  have apart : ∀ {h h' p p' : Bytes} {n n' a b : Nat}, Points url (ascii "https") a h n p → Points url (ascii "http") b h' n' p' → False := by
    rintro h h' p p' n n' a b ⟨_, _, _, e⟩ ⟨_, _, _, e'⟩
    rw [e] at e'
    have := congrArg (·[4]?) e'
    simp only [List.append_assoc] at this
    rw [List.getElem?_append_left (by decide), List.getElem?_append_right (by decide), List.getElem?_append_left (by decide)] at this
    exact absurd this (by decide)
  cases t <;> cases t'
  · exact ⟨rfl, points_unique hx hy⟩
  · exact (apart hy hx).elim
  · exact (apart hx hy).elim
  · exact ⟨rfl, points_unique hx hy⟩

/-! ## Addresses and URLs -/

/-- The scheme of an address, replaced as the constructor does. -/
theorem drop_ipp (r : Bytes) : ascii "http" ++ (ascii "ipp" ++ r).drop 3 = ascii "http" ++ r := rfl

/-- An address of the scheme `ipp` becomes a URL of the scheme `http` with the same rest, `ipps` likewise `https`. -/
theorem points_http {addr host path : Bytes} {port : Nat} (usual : Nat) (h : Points addr (ascii "ipp") usual host port path) :
    (Reaches (ascii "http" ++ addr.drop 3) false host port path) ∨ (port = usual ∧ Reaches (ascii "http" ++ addr.drop 3) false host 80 path) := by
  obtain ⟨hh, a, ha, rfl⟩ := h
  have e : ascii "http" ++ (ascii "ipp" ++ ascii "://" ++ host ++ a ++ 47 :: path).drop 3 = ascii "http" ++ ascii "://" ++ host ++ a ++ 47 :: path := by
    simp only [List.append_assoc]; rfl
  rw [e]
  rcases ha with ⟨rfl, rfl⟩ | ha
  · exact .inr ⟨rfl, hh, [], .inl ⟨rfl, rfl⟩, rfl⟩
  · exact .inl ⟨hh, a, .inr ha, rfl⟩

theorem points_https {addr host path : Bytes} {port : Nat} (usual : Nat) (h : Points addr (ascii "ipps") usual host port path) :
    (Reaches (ascii "http" ++ addr.drop 3) true host port path) ∨ (port = usual ∧ Reaches (ascii "http" ++ addr.drop 3) true host 443 path) := by
  obtain ⟨hh, a, ha, rfl⟩ := h
  have e : ascii "http" ++ (ascii "ipps" ++ ascii "://" ++ host ++ a ++ 47 :: path).drop 3 = ascii "https" ++ ascii "://" ++ host ++ a ++ 47 :: path := by
    simp only [List.append_assoc]; rfl
  rw [e]
  rcases ha with ⟨rfl, rfl⟩ | ha
  · exact .inr ⟨rfl, hh, [], .inl ⟨rfl, rfl⟩, rfl⟩
  · exact .inl ⟨hh, a, .inr ha, rfl⟩

theorem transfer_url {p : Printer} {ignore : Bool} {es : List Event} {t : Transfer} (h : t ∈ transfers p ignore es) : t.url = ascii "http" ++ p.addr.drop 3 := by
  obtain ⟨e, _, he⟩ := List.mem_filterMap.mp h
  cases e <;> simp only [transferOf, Option.some.injEq] at he
  · subst he; rfl
  · subst he; rfl
  all_goals cases he

/-! ## C85 -/

/-- **C85.** An address with its port: every request, and the document, goes to the host and port it names, with TLS if and only if it says `ipps`. -/
theorem C85_named (p : Printer) (ignore : Bool) (es : List Event) {t : Transfer} (ht : t ∈ transfers p ignore es) {host path d : Bytes} {port : Nat} (hh : Host host)
    (hd : Numeral d port) :
    (p.addr = ascii "ipp://" ++ host ++ ascii ":" ++ d ++ ascii "/" ++ path → Reaches t.url false host port path) ∧
    (p.addr = ascii "ipps://" ++ host ++ ascii ":" ++ d ++ ascii "/" ++ path → Reaches t.url true host port path) := by
  rw [transfer_url ht]
  constructor <;> intro h <;> rw [h]
  · refine ⟨hh, 58 :: d, .inr ⟨d, rfl, hd⟩, ?_⟩
    simp only [List.append_assoc]; rfl
  · refine ⟨hh, 58 :: d, .inr ⟨d, rfl, hd⟩, ?_⟩
    simp only [List.append_assoc]; rfl

/-- **C85.** What is sent is announced for what it is: IPP, of the length of the message that is posted; a document, whose length is not known when
it starts, in chunks and without a length. -/
theorem C85_announced (p : Printer) (ignore : Bool) (es : List Event) {t : Transfer} (ht : t ∈ transfers p ignore es) :
    ascii "Content-Type: application/ipp" ∈ t.headers ∧
    ((∃ m bytes, .post m bytes ∈ es ∧ t.size = some bytes.length ∧ ascii "Transfer-Encoding: chunked" ∉ t.headers) ∨
     (∃ m bytes, .openStream m bytes ∈ es ∧ t.size = none ∧ ascii "Transfer-Encoding: chunked" ∈ t.headers)) := by
  obtain ⟨e, hm, he⟩ := List.mem_filterMap.mp ht
  cases e <;> simp only [transferOf, Option.some.injEq] at he
  · subst he
    have h : (poster p.addr ‹Bytes› ignore).headers = [ascii "User-Agent: ", ascii "Expect:", ascii "Content-Type: application/ipp", ascii "Accept-Encoding: identity"] := rfl
    exact ⟨by rw [h]; decide +kernel, .inl ⟨_, _, hm, rfl, by rw [h]; decide +kernel⟩⟩
  · subst he
    have h : (streamer p.addr true).headers =
      [ascii "User-Agent: ", ascii "Expect:", ascii "Content-Type: application/ipp", ascii "Accept-Encoding: identity", ascii "Transfer-Encoding: chunked"] := rfl
    exact ⟨by rw [h]; decide +kernel, .inr ⟨_, _, hm, rfl, by rw [h]; decide +kernel⟩⟩
  all_goals cases he

example : ∃ t ∈ transfers ⟨ascii "ipp://h:631/p", [], []⟩ true [.post {} [1, 2, 3]], t.size = some 3 := ⟨_, List.mem_singleton.mpr rfl, rfl⟩

/-- C85, as one would like it for an address without a port: the port of IPP, 631 (RFC 8010, 3.3 and RFC 7472, 4.2). -/
def C85_usual (scheme : Bytes) (tls : Bool) : Prop := ∀ (p : Printer) (ignore : Bool) (es : List Event) (t : Transfer) (host path : Bytes), t ∈ transfers p ignore es → Host host →
  p.addr = scheme ++ ascii "://" ++ host ++ ascii "/" ++ path → Reaches t.url tls host 631 path

/-- **C85, where it fails.** An address without a port leads to port 80, and with `ipps` to port 443. -/
theorem C85_usual_false : ¬ C85_usual (ascii "ipp") false ∧ ¬ C85_usual (ascii "ipps") true := by
  have hh : Host (ascii "h") := ⟨by decide, by decide⟩
  constructor <;> intro h
  · have h1 := h ⟨ascii "ipp://h/p", [], []⟩ true [.openStream {} []] _ (ascii "h") (ascii "p") (List.mem_singleton.mpr rfl) hh rfl
    have h2 : Reaches (streamer (ascii "ipp://h/p") true).url false (ascii "h") 80 (ascii "p") := ⟨hh, [], .inl ⟨rfl, rfl⟩, rfl⟩
    exact absurd (reaches_unique h1 h2).2.2.1 (by decide)
  · have h1 := h ⟨ascii "ipps://h/p", [], []⟩ true [.openStream {} []] _ (ascii "h") (ascii "p") (List.mem_singleton.mpr rfl) hh rfl
    have h2 : Reaches (streamer (ascii "ipps://h/p") true).url true (ascii "h") 443 (ascii "p") := ⟨hh, [], .inl ⟨rfl, rfl⟩, rfl⟩
    exact absurd (reaches_unique h1 h2).2.2.1 (by decide)

open Discovery.Spec in
theorem address_host {rs : List Record} {n ip : Bytes} (h : ip ∈ addresses rs n) : Host ip := by
  obtain ⟨r, _, hr⟩ := List.mem_filterMap.mp h
  split at hr
  · split at hr
    · cases hr
      have num : ∀ n : Nat, ∀ b ∈ number n, b ≠ 58 ∧ b ≠ 47 ∧ b ≠ 63 ∧ b ≠ 35 ∧ b ≠ 64 := fun n b hb => by
        have := Discovery.decimal_digits n b hb
        refine ⟨?_, ?_, ?_, ?_, ?_⟩ <;> rintro rfl <;> exact absurd this (by decide)
      constructor
      · unfold quad; simp
      · intro b hb
        unfold quad at hb
        simp only [List.mem_append, List.mem_singleton] at hb
        rcases hb with (((((h | rfl) | h) | rfl) | h) | rfl) | h
        · exact num _ b h
        · decide
        · exact num _ b h
        · decide
        · exact num _ b h
        · decide
        · exact num _ b h
    · cases hr
  · cases hr

open Discovery.Spec in
theorem uri_points {scheme ip path : Bytes} (usual port : Nat) (hh : Host ip) : Points (uri scheme usual port ip path) scheme usual ip port path := by
  refine ⟨hh, if port = usual then [] else 58 :: number port, ?_, ?_⟩
  · split
    · exact .inl ⟨rfl, by assumption⟩
    · exact .inr ⟨_, rfl, number_numeral port⟩
  · unfold uri
    split <;> simp only [List.append_assoc] <;> rfl

open Discovery Discovery.Spec in
/-- **C85, for printers that were discovered** (from responses of up to 4096 bytes, as C66). Requests to a reported address go to the address and path of a printer that the
responses tell of: with TLS to its port if it was announced for `ipps`; without TLS to its port if it was announced for `ipp` with another port than 631. -/
theorem C85_discovered_partial {clock : Nat → Nat} {ask : Nat → List Bytes → St → Outcome St} (ha : Asking clock ask) {msgs : List Bytes} {rss : List (List Record)}
    (hr : Responses msgs rss) (hl : ∀ m ∈ msgs, m.length ≤ 4096) {s : St} (h : discover ask msgs = .ok s) {p : Printer} (hp : p.addr ∈ s.reported) :
    ∃ j it port ip path, ∀ (ignore : Bool) (es : List Event), ∀ t ∈ transfers p ignore es,
      (Discovery.Spec.Printer (rss.take j).flatten ippsService it port ip path ∧ Reaches t.url true ip port path) ∨
      (Discovery.Spec.Printer (rss.take j).flatten ippService it port ip path ∧ (port ≠ 631 → Reaches t.url false ip port path) ∧ (port = 631 → Reaches t.url false ip 80 path)) := by
  obtain ⟨j, it, port, ip, path, hc⟩ := C66_sound_partial ha hr hl h hp
  refine ⟨j, it, port, ip, path, fun ignore es t ht => ?_⟩
  rw [transfer_url ht]
  rcases hc with ⟨hpr, e⟩ | ⟨hpr, e⟩
  · refine .inl ⟨hpr, ?_⟩
    obtain ⟨_, target, _, hip, _⟩ := hpr
    have hpt : Points p.addr (ascii "ipps") 443 ip port path := e ▸ uri_points 443 port (address_host hip)
    rcases points_https 443 hpt with h | ⟨h1, h⟩
    · exact h
    · rw [h1]; exact h
  · refine .inr ⟨hpr, ?_⟩
    obtain ⟨_, target, _, hip, _⟩ := hpr
    have hh := address_host hip
    have e : p.addr = uri (ascii "ipp") 631 port ip path := e
    constructor <;> intro hport
    · rcases points_http 631 (e ▸ uri_points 631 port hh) with h | ⟨h1, _⟩
      · exact h
      · exact absurd h1 hport
    · subst hport
      refine ⟨hh, [], .inl ⟨rfl, rfl⟩, ?_⟩
      rw [e]
      unfold uri
      rw [if_pos rfl]
      simp only [List.append_assoc]; rfl

open Discovery Discovery.Spec in
/-- C85 for printers that were discovered, as one would like it. -/
def C85_discovered : Prop := ∀ (msgs : List Bytes) (rss : List (List Record)) (s : St), Responses msgs rss → (∀ m ∈ msgs, m.length ≤ 4096) →
  discover (sendQuery (fun _ => 0)) msgs = .ok s → ∀ (p : Printer), p.addr ∈ s.reported → ∀ (ignore : Bool) (es : List Event), ∀ t ∈ transfers p ignore es,
  ∃ service it port ip path tls, Discovery.Spec.Printer rss.flatten service it port ip path ∧ Reaches t.url tls ip port path

section
open Discovery Discovery.Spec

/-- A response of 116 bytes in which a printer announces itself for `ipp`, on port 631. -/
def usualResponse : Bytes :=
  be16 0 ++ be16 0x8400 ++ be16 0 ++ be16 1 ++ be16 0 ++ be16 3 ++
  [4] ++ ascii "_ipp" ++ [4] ++ ascii "_tcp" ++ [5] ++ ascii "local" ++ [0] ++ be16 12 ++ be16 1 ++ be32 120 ++ be16 4 ++ [1, 80, 192, 12] ++
  [192, 39] ++ be16 33 ++ be16 1 ++ be32 120 ++ be16 10 ++ be16 0 ++ be16 0 ++ be16 631 ++ [1, 104, 192, 22] ++
  [192, 39] ++ be16 16 ++ be16 1 ++ be32 120 ++ be16 23 ++ [9] ++ ascii "txtvers=1" ++ [12] ++ ascii "rp=ipp/print" ++
  [192, 61] ++ be16 1 ++ be16 1 ++ be32 120 ++ be16 4 ++ [10, 0, 0, 9]

def usualRecords : List Record :=
  [⟨[ascii "_ipp", ascii "_tcp", ascii "local"], .ptr [ascii "P", ascii "_ipp", ascii "_tcp", ascii "local"]⟩,
   ⟨[ascii "P", ascii "_ipp", ascii "_tcp", ascii "local"], .srv 0 0 631 [ascii "h", ascii "local"]⟩,
   ⟨[ascii "P", ascii "_ipp", ascii "_tcp", ascii "local"], .txt [ascii "txtvers=1", ascii "rp=ipp/print"]⟩,
   ⟨[ascii "h", ascii "local"], .a 10 0 0 9⟩]

theorem usual_response : Response usualResponse usualRecords := by
  have local22 : NameAt usualResponse 22 [ascii "local"] 29 :=
    .label (l := ascii "local") (by decide +kernel) (by decide +kernel) (at_of (by decide +kernel) (by decide +kernel))
      (.root (at_of (by decide +kernel) (by decide +kernel)))
  have service : NameAt usualResponse 12 [ascii "_ipp", ascii "_tcp", ascii "local"] 29 :=
    .label (l := ascii "_ipp") (by decide +kernel) (by decide +kernel) (at_of (by decide +kernel) (by decide +kernel))
      (.label (l := ascii "_tcp") (by decide +kernel) (by decide +kernel) (at_of (by decide +kernel) (by decide +kernel)) local22)
  have printer : NameAt usualResponse 39 [ascii "P", ascii "_ipp", ascii "_tcp", ascii "local"] 43 :=
    .label (l := ascii "P") (by decide +kernel) (by decide +kernel) (at_of (by decide +kernel) (by decide +kernel))
      (.reference (ref := 12) (by decide) (by decide +kernel) (at_of (by decide +kernel) (by decide +kernel)) service)
  have host : NameAt usualResponse 61 [ascii "h", ascii "local"] 65 :=
    .label (l := ascii "h") (by decide +kernel) (by decide +kernel) (at_of (by decide +kernel) (by decide +kernel))
      (.reference (ref := 22) (by decide) (by decide +kernel) (at_of (by decide +kernel) (by decide +kernel)) local22)
  refine ⟨0, 0x8400, 0, 1, 0, 3, 12, by decide, by decide, by decide, by decide, at_of (by decide +kernel) (by decide +kernel), .zero, ?_, rfl⟩
  refine .cons (stop := 43) ⟨29, 12, 4, service, ⟨by decide, 1, 120, at_of (by decide +kernel) (by decide +kernel)⟩, .ptr printer, rfl⟩ ?_
  refine .cons (stop := 65) ⟨45, 33, 10, .reference (ref := 39) (by decide) (by decide) (at_of (by decide +kernel) (by decide +kernel)) printer,
    ⟨by decide, 1, 120, at_of (by decide +kernel) (by decide +kernel)⟩, .srv (by decide) (at_of (by decide +kernel) (by decide +kernel)) host, rfl⟩ ?_
  refine .cons (stop := 100) ⟨67, 16, 23, .reference (ref := 39) (by decide) (by decide) (at_of (by decide +kernel) (by decide +kernel)) printer,
    ⟨by decide, 1, 120, at_of (by decide +kernel) (by decide +kernel)⟩,
    .txt (by decide +kernel) (at_of (by decide +kernel) (by decide +kernel)) (by decide +kernel), rfl⟩ ?_
  exact .cons (stop := 116) ⟨102, 1, 4, .reference (ref := 61) (by decide) (by decide) (at_of (by decide +kernel) (by decide +kernel)) host,
    ⟨by decide, 1, 120, at_of (by decide +kernel) (by decide +kernel)⟩, .a (at_of (by decide +kernel) (by decide +kernel)), rfl⟩ .nil

/-- The only port that these records name. -/
theorem usual_port {it target : Bytes} {port : Nat} (h : (services usualRecords it).getLast? = some (port, target)) : port = 631 := by
  obtain ⟨r, hr, e⟩ := List.mem_filterMap.mp (List.mem_of_getLast? h)
  unfold usualRecords at hr
  simp only [List.mem_cons, List.not_mem_nil, or_false] at hr
  rcases hr with rfl | rfl | rfl | rfl <;> simp only [Option.ite_none_right_eq_some, Option.some.injEq, Prod.mk.injEq, reduceCtorEq] at e
  exact e.2.1.symm

/-- **C85, where it fails.** A printer that announces itself on port 631 is reported with an address without a port, and is then contacted on port 80. -/
theorem C85_discovered_false : ¬ C85_discovered := by
  intro h
  have h1 : reportsOf [usualResponse] = [ascii "ipp://10.0.0.9/ipp/print"] := by decide +kernel
  unfold reportsOf at h1
  split at h1
  · rename_i s hs
    obtain ⟨service, it, port, ip, path, tls, ⟨_, target, hp, _, _⟩, hx⟩ := h [usualResponse] [usualRecords] s (.cons usual_response .nil)
      (by intro m hm; rw [List.mem_singleton.mp hm]; decide +kernel) hs
      ⟨ascii "ipp://10.0.0.9/ipp/print", [], []⟩ (by rw [h1]; exact List.mem_singleton.mpr rfl) true [.openStream {} []] _ (List.mem_singleton.mpr rfl)
    have hp := usual_port (show (services usualRecords it).getLast? = some (port, target) by simpa using hp)
    have h2 : Reaches (streamer (ascii "ipp://10.0.0.9/ipp/print") true).url false (ascii "10.0.0.9") 80 (ascii "ipp/print") :=
      ⟨⟨by decide, by decide⟩, [], .inl ⟨rfl, rfl⟩, rfl⟩
    exact absurd (hp.symm.trans (reaches_unique hx h2).2.2.1) (by decide)
  · cases h1

/-- A printer announced for `ipps` on port 8443, discovered and contacted there. -/
example : (∃ s, discover (sendQuery (fun _ => 0)) [exampleResponse] = .ok s ∧ ascii "ipps://10.0.0.9:8443/ipp/print" ∈ s.reported) ∧
    (transfers ⟨ascii "ipps://10.0.0.9:8443/ipp/print", [], []⟩ true [.openStream {} []]).map Transfer.url = [ascii "https://10.0.0.9:8443/ipp/print"] := by
  refine ⟨?_, by decide +kernel⟩
  have h1 : reportsOf [exampleResponse] = [ascii "ipps://10.0.0.9:8443/ipp/print"] := by decide +kernel
  unfold reportsOf at h1
  split at h1
  · rename_i s hs
    exact ⟨s, hs, h1 ▸ List.mem_singleton.mpr rfl⟩
  · cases h1

end

/-- An address with a port. -/
example : Host (ascii "10.0.0.9") ∧ Numeral (ascii "8631") 8631 ∧ Reaches (ascii "http://10.0.0.9:8631/ipp/print") false (ascii "10.0.0.9") 8631 (ascii "ipp/print") :=
  have hh : Host (ascii "10.0.0.9") := ⟨by decide, by decide⟩
  have hn : Numeral (ascii "8631") 8631 := ⟨by decide, by decide, by decide⟩
  ⟨hh, hn, hh, 58 :: ascii "8631", .inr ⟨_, rfl, hn⟩, rfl⟩

/-! ## C86 -/

/-- The certificate of the printer, and that it is for its name, is checked. -/
def Spec.Checked (t : Transfer) : Prop := t.verifyPeer = true ∧ t.verifyHost = true

/-- Nothing but requests without a document. -/
def Posts (es : List Event) : Prop := ∀ e ∈ es, ∃ m bytes, e = .post m bytes

theorem posts_nil : Posts [] := fun _ h => nomatch h

theorem lift_posts {α β : Type} (o : Outcome α) (f : α → Act β) (h : ∀ a, o = .ok a → Posts (f a).events) : Posts (Act.lift o >>= f).events := by
  rcases lift_bind o f with ⟨a, ha, e⟩ | hd
  · rw [e]; exact h a ha
  · rw [hd.1]; exact posts_nil

theorem request_posts {α : Type} (id : Nat) (m : Msg) (reply : Except Bytes Bytes) (f : Except Bytes Msg → Act α) (h : ∀ r, (f r).events = []) :
    Posts (doRequest id m reply >>= f).events := by
  show Posts (Act.bind (doRequest id m reply) f).events
  have hq : Posts (doRequest id m reply).events := by
    unfold doRequest
    refine lift_posts _ _ (fun bytes _ => ?_)
    rw [emit_bind]
    intro e he
    have he : e ∈ [Event.post m bytes] ++ [] := he
    simp only [List.append_nil, List.mem_singleton] at he
    exact ⟨m, bytes, he⟩
  unfold Act.bind
  split
  · simp only [h, List.append_nil]; exact hq
  · exact hq
  · exact hq
  · exact hq

theorem posts_checked {p : Printer} {es : List Event} (h : Posts es) : ∀ t ∈ transfers p false es, Checked t := by
  intro t ht
  obtain ⟨e, he, hx⟩ := List.mem_filterMap.mp ht
  obtain ⟨m, bytes, rfl⟩ := h e he
  simp only [transferOf, Option.some.injEq] at hx
  subst hx
  exact ⟨rfl, rfl⟩

/-- **C86, for everything but documents.** A printer object that is not to ignore errors of certificates has them checked when it asks for attributes,
sets them, identifies the printer, lists jobs and cancels one. -/
theorem C86_requests_partial (p : Printer) (reqId : Nat) (reply : Except Bytes Bytes) {t : Transfer} :
    (∀ files, t ∈ transfers p false (refresh files reqId p reply).events → Checked t) ∧
    (∀ kvs, t ∈ transfers p false (setAttributes reqId p kvs reply).events → Checked t) ∧
    (t ∈ transfers p false (identify reqId p reply).events → Checked t) ∧
    (t ∈ transfers p false (getJobs reqId p reply).events → Checked t) ∧
    (∀ id, t ∈ transfers p false (cancelJob reqId p id reply).events → Checked t) := by
  refine ⟨fun files => posts_checked ?_ t, fun kvs => posts_checked ?_ t, posts_checked ?_ t, posts_checked ?_ t, fun id => posts_checked ?_ t⟩
  · unfold refresh
    split
    · exact posts_nil
    · refine lift_posts _ _ (fun m _ => request_posts _ _ _ _ (fun r => ?_))
      rcases lift_bind (applyOverrides files (replyAttrs r)) (fun a => (pure (errorOf r, { p with attrs := a }) : Act (Option Bytes × Printer))) with ⟨a, _, e⟩ | hd
      · rw [e]; rfl
      · exact hd.1
  · unfold setAttributes
    split
    · exact lift_posts _ _ (fun m _ => request_posts _ _ _ _ (fun r => rfl))
    · exact posts_nil
    · exact posts_nil
    · exact posts_nil
  · unfold identify
    split
    · exact lift_posts _ _ (fun m _ => request_posts _ _ _ _ (fun r => rfl))
    · exact posts_nil
  · exact lift_posts _ _ (fun m _ => request_posts _ _ _ _ (fun r => rfl))
  · exact lift_posts _ _ (fun m _ => request_posts _ _ _ _ (fun r => rfl))

/-- C86, for jobs: a printer object that is not to ignore errors of certificates has them checked. -/
def C86_job : Prop := ∀ (env : Env) (p : Printer) (job : PrintJob) (input fileName : Bytes) (pages : Int), ∀ t ∈ transfers p false (runJob env p job input fileName pages).events, Checked t

/-- **C86, where it fails.** The document is sent without a check of the certificate, whatever the printer object was told. -/
theorem C86_document_false : ¬ C86_job := by
  intro h
  let p : Printer := { examplePrinter2 with addr := ascii "ipps://x/ipp/print" }
  have h1 : (transfers p false (runJob exampleEnv p (PrintJob.new p.attrs []) pdf (ascii "a.pdf") 1).events).map (fun t => (t.verifyPeer, t.url)) =
      [(true, ascii "https://x/ipp/print"), (false, ascii "https://x/ipp/print")] := by decide +kernel
  have h2 := h exampleEnv p (PrintJob.new p.attrs []) pdf (ascii "a.pdf") 1
  have h3 : (false, ascii "https://x/ipp/print") ∈ (transfers p false (runJob exampleEnv p (PrintJob.new p.attrs []) pdf (ascii "a.pdf") 1).events).map (fun t => (t.verifyPeer, t.url)) := by
    rw [h1]; exact List.mem_of_getElem? (i := 1) rfl
  obtain ⟨t, ht, e⟩ := List.mem_map.mp h3
  have := (h2 t ht).1
  rw [(Prod.mk.inj e).1] at this
  cases this

/-- Jobs are asked for over a checked connection. -/
example : (transfers { examplePrinter2 with addr := ascii "ipps://x/ipp/print" } false (getJobs 1 { examplePrinter2 with addr := ascii "ipps://x/ipp/print" } (.error [])).events).map
    (fun t => (t.url, t.verifyPeer, t.verifyHost)) = [(ascii "https://x/ipp/print", true, true)] := by decide +kernel

end Verif.Printer
