/-!
# The list of certificates

ua/certificate_list.go (the whole file). A certificate has the fields that the file looks at; `Equal` of crypto/x509
compares `Raw`. The maps are functions, a missing key is the empty list. A PEM file is the sequence of what
`pem.Decode` finds in it; `parse` stands for `x509.ParseCertificate`. A nil pointer to a list is `none`; the zero value
of the struct, whose maps are nil, has `made = false`. An index beyond the end is a panic.
-/

namespace Opcua.CertList

abbrev Octets := List UInt8

/-- The fields Raw, RawSubject, RawIssuer, SubjectKeyId, AuthorityKeyId of x509.Certificate. -/
structure Cert where
  raw : Octets
  subject : Octets
  issuer : Octets
  subjectKeyID : Octets
  authorityKeyID : Octets
  deriving DecidableEq, Repr

/-- CertificateList, certificate_list.go:9-13. -/
structure CList where
  made : Bool
  bySubjectKeyID : Octets → List Nat
  byName : Octets → List Nat
  certs : List Cert

/-- What a function gives back. -/
inductive Res (α : Type) where
  | ok (a : α)
  | panic
  deriving DecidableEq, Repr

/-- NewCertificateList, certificate_list.go:16-21. -/
def new : CList := ⟨true, fun _ => [], fun _ => [], []⟩

/-- `ua.CertificateList{}`. -/
def zero : CList := ⟨false, fun _ => [], fun _ => [], []⟩

/-- The loops over indices, certificate_list.go:31-33 and 38-40: `s.certs[j]` panics beyond the end. -/
def pick (certs : List Cert) : List Nat → Res (List Cert)
  | [] => .ok []
  | j :: js =>
    match certs[j]? with
    | none => .panic
    | some c =>
      match pick certs js with
      | .ok cs => .ok (c :: cs)
      | .panic => .panic

/-- FindPotentialParents, certificate_list.go:24-42. -/
def findPotentialParents (s : Option CList) (cert : Cert) : Res (List Cert) :=
  match s with
  | none => .ok []
  | some s =>
    if cert.authorityKeyID.length > 0 then pick s.certs (s.bySubjectKeyID cert.authorityKeyID)
    else pick s.certs (s.byName cert.issuer)

/-- The loop of Contains, certificate_list.go:51-57. -/
def containsLoop (certs : List Cert) (cert : Cert) : List Nat → Res Bool
  | [] => .ok false
  | j :: js =>
    match certs[j]? with
    | none => .panic
    | some c => if c.raw = cert.raw then .ok true else containsLoop certs cert js

/-- Contains, certificate_list.go:45-58. -/
def contains (s : Option CList) (cert : Cert) : Res Bool :=
  match s with
  | none => .ok false
  | some s => containsLoop s.certs cert (s.byName cert.subject)

/-- `m[k] = append(m[k], n)`. -/
def put (m : Octets → List Nat) (k : Octets) (n : Nat) : Octets → List Nat := fun x => if x = k then m x ++ [n] else m x

/-- AddCert, certificate_list.go:61-80. A nil list and a nil certificate panic; so does writing to a nil map. -/
def addCert (s : Option CList) (cert : Option Cert) : Res (Option CList) :=
  match cert with
  | none => .panic
  | some cert =>
    match contains s cert with
    | .panic => .panic
    | .ok true => .ok s
    | .ok false =>
      match s with
      | none => .panic
      | some s =>
        if s.made = false then .panic
        else
          let n := s.certs.length
          .ok (some { s with
            certs := s.certs ++ [cert]
            bySubjectKeyID :=
              if cert.subjectKeyID.length > 0 then put s.bySubjectKeyID cert.subjectKeyID n else s.bySubjectKeyID
            byName := put s.byName cert.subject n })

/-- pem.Block. -/
structure Block where
  type : String
  headers : List (String × String)
  bytes : Octets
  deriving DecidableEq, Repr

/-- AppendCertsFromPEM, certificate_list.go:88-109, over the blocks of the file. -/
def appendPEM (parse : Octets → Option Cert) : Option CList → List Block → Bool → Res (Option CList × Bool)
  | s, [], ok => .ok (s, ok)
  | s, b :: bs, ok =>
    if b.type ≠ "CERTIFICATE" ∨ b.headers.length ≠ 0 then appendPEM parse s bs ok
    else
      match parse b.bytes with
      | none => appendPEM parse s bs ok
      | some c =>
        match addCert s (some c) with
        | .panic => .panic
        | .ok s' => appendPEM parse s' bs true

/-- Subjects, certificate_list.go:113-119. -/
def subjects (s : Option CList) : Res (List Octets) :=
  match s with
  | none => .panic
  | some s => .ok (s.certs.map (·.subject))

/-- Calls that change a list. -/
inductive Op where
  | add (c : Cert)
  | pem (blocks : List Block)
  deriving DecidableEq, Repr

def step (parse : Octets → Option Cert) (s : Option CList) : Op → Res (Option CList)
  | .add c => addCert s (some c)
  | .pem bs =>
    match appendPEM parse s bs false with
    | .ok (s', _) => .ok s'
    | .panic => .panic

def run (parse : Octets → Option Cert) : Option CList → List Op → Res (Option CList)
  | s, [] => .ok s
  | s, o :: os =>
    match step parse s o with
    | .ok s' => run parse s' os
    | .panic => .panic

end Opcua.CertList
