import Verif.Discovery.Spec

/-!
# Specification: responses of DNS (RFC 1035, sections 3.2, 3.3, 3.4 and 4.1; RFC 2782; RFC 6763), and what they say about printers
-/

namespace Verif.Discovery.Spec

/-- What a record holds. -/
inductive Data where
  | ptr (target : List Bytes)
  | txt (strings : List Bytes)
  | srv (priority weight port : Nat) (target : List Bytes)
  | a (a b c d : UInt8)
  | other (type : Nat) (data : Bytes)

structure Record where
  name : List Bytes
  data : Data

/-- The strings of a TXT record: each with its length in front. -/
def textBytes (strings : List Bytes) : Bytes := strings.flatMap (fun s => UInt8.ofNat s.length :: s)

/-- Type, class, time to live, and length of the data. -/
def HeadAt (msg : Bytes) (pos type len : Nat) : Prop :=
  len < 65536 ∧ ∃ cls ttl, At msg pos (be16 type ++ be16 cls ++ be32 ttl ++ be16 len)

/-- The data of length `len` at `pos` in `msg`, and its type. -/
inductive DataAt (msg : Bytes) : Nat → Nat → Nat → Data → Prop
  | ptr {pos len : Nat} {target : List Bytes} : NameAt msg pos target (pos + len) → DataAt msg pos 12 len (.ptr target)
  | txt {pos len : Nat} {strings : List Bytes} : (∀ s ∈ strings, s.length ≤ 255) → At msg pos (textBytes strings) →
      len = (textBytes strings).length → DataAt msg pos 16 len (.txt strings)
  | srv {pos len priority weight port : Nat} {target : List Bytes} : port < 65536 →
      At msg pos (be16 priority ++ be16 weight ++ be16 port) →
      NameAt msg (pos + 6) target (pos + len) → DataAt msg pos 33 len (.srv priority weight port target)
  | a {pos : Nat} {a b c d : UInt8} : At msg pos [a, b, c, d] → DataAt msg pos 1 4 (.a a b c d)
  | other {pos type len : Nat} {data : Bytes} : type < 65536 → type ≠ 12 → type ≠ 16 → type ≠ 33 → type ≠ 1 →
      At msg pos data → data.length = len → DataAt msg pos type len (.other type data)

/-- A record at `pos`, up to `stop`. -/
def RecordAt (msg : Bytes) (pos : Nat) (r : Record) (stop : Nat) : Prop :=
  ∃ p type len, NameAt msg pos r.name p ∧ HeadAt msg p type len ∧ DataAt msg (p + 10) type len r.data ∧ stop = p + 10 + len

/-- Records from `pos` on. -/
inductive RecordsAt (msg : Bytes) : Nat → List Record → Prop
  | nil {pos : Nat} : RecordsAt msg pos []
  | cons {pos stop : Nat} {r : Record} {rs : List Record} : RecordAt msg pos r stop → RecordsAt msg stop rs → RecordsAt msg pos (r :: rs)

/-- `n` questions from `pos` to `stop`, with any types and classes. -/
inductive QuestionsAt (msg : Bytes) : Nat → Nat → Nat → Prop
  | zero {pos : Nat} : QuestionsAt msg 0 pos pos
  | succ {n pos p stop type cls : Nat} {name : List Bytes} : NameAt msg pos name p → At msg p (be16 type ++ be16 cls) →
      QuestionsAt msg n (p + 4) stop → QuestionsAt msg (n + 1) pos stop

/-- A response with these records (answers, authorities and additional ones together). -/
def Response (msg : Bytes) (rs : List Record) : Prop :=
  ∃ id flags questions answers authorities additional start,
    questions < 65536 ∧ answers < 65536 ∧ authorities < 65536 ∧ additional < 65536 ∧
    At msg 0 (be16 id ++ be16 flags ++ be16 questions ++ be16 answers ++ be16 authorities ++ be16 additional) ∧
    QuestionsAt msg questions 12 start ∧ RecordsAt msg start rs ∧ rs.length = answers + authorities + additional

/-- Responses with these records. -/
inductive Responses : List Bytes → List (List Record) → Prop
  | nil : Responses [] []
  | cons {msg : Bytes} {msgs : List Bytes} {rs : List Record} {rss : List (List Record)} : Response msg rs → Responses msgs rss →
      Responses (msg :: msgs) (rs :: rss)

/-! ## What records say -/

/-- The number in decimal. -/
def number (n : Nat) : Bytes := ascii (toString n)

/-- An IPv4 address as text. -/
def quad (a b c d : UInt8) : Bytes := number a.toNat ++ [46] ++ number b.toNat ++ [46] ++ number c.toNat ++ [46] ++ number d.toNat

/-- The names of the services. -/
def ippService : Bytes := ascii "_ipp._tcp.local"
def ippsService : Bytes := ascii "_ipps._tcp.local"

/-- The names that the service `service` was announced for. -/
def pointers (service : Bytes) (rs : List Record) : List Bytes :=
  rs.filterMap (fun r => match r.data with
    | .ptr t => if service <:+ dotted r.name then some (dotted t) else none
    | _ => none)

/-- The ports and targets of a name, in order. -/
def services (rs : List Record) (n : Bytes) : List (Nat × Bytes) :=
  rs.filterMap (fun r => match r.data with
    | .srv _ _ port t => if dotted r.name = n then some (port, dotted t) else none
    | _ => none)

/-- The addresses of a name, in order. -/
def addresses (rs : List Record) (n : Bytes) : List Bytes :=
  rs.filterMap (fun r => match r.data with
    | .a a b c d => if dotted r.name = n then some (quad a b c d) else none
    | _ => none)

/-- The strings that describe a name, in order. -/
def texts (rs : List Record) (n : Bytes) : List Bytes :=
  rs.flatMap (fun r => match r.data with
    | .txt l => if dotted r.name = n then l else []
    | _ => [])

/-- The value of a key in a string `key=value`; a key alone stands for itself. -/
def valueIn (key s : Bytes) : Option Bytes :=
  if s = key then some s else if key ++ [61] <+: s then some (s.drop (key.length + 1)) else none

/-- The values of a key of a name, in order. -/
def values (rs : List Record) (n key : Bytes) : List Bytes := (texts rs n).filterMap (valueIn key)

/-- The address of a printer. -/
def uri (scheme : Bytes) (usual port : Nat) (ip path : Bytes) : Bytes :=
  scheme ++ ascii "://" ++ ip ++ (if port = usual then [] else ascii ":" ++ number port) ++ ascii "/" ++ path

/-- The records `rs` tell of a printer with the name `it`, announced for `service`: the last port and target, the last path, one of the addresses
of the target. -/
def Printer (rs : List Record) (service it : Bytes) (port : Nat) (ip path : Bytes) : Prop :=
  it ∈ pointers service rs ∧ ∃ target, (services rs it).getLast? = some (port, target) ∧ ip ∈ addresses rs target ∧
    (values rs it (ascii "rp")).getLast? = some path

def ippUri (port : Nat) (ip path : Bytes) : Bytes := uri (ascii "ipp") 631 port ip path
def ippsUri (port : Nat) (ip path : Bytes) : Bytes := uri (ascii "ipps") 443 port ip path

end Verif.Discovery.Spec
