/-
Specification of the server's side of password authentication (MySQL documentation, "Native Password Authentication"
and "Caching SHA-2"). The server stores the hash of the hash of the password (nothing for an empty password) and
checks a response against the nonce it sent. Independent of the model; the hash functions are parameters.
-/
import Verif.Spec.Wire

namespace Mybin.Spec

/-- bytewise exclusive or -/
def xor : List UInt8 → List UInt8 → List UInt8
  | a :: as, b :: bs => (a ^^^ b) :: xor as bs
  | _, _ => []

/-- what the server stores for a password -/
def stored (hash : List UInt8 → List UInt8) (password : List UInt8) : List UInt8 :=
  if password = [] then [] else hash (hash password)

/-- mysql_native_password: `response XOR SHA1(nonce ++ stored)` must hash to `stored` -/
def nativeAccepts (sha1 : List UInt8 → List UInt8) (stored nonce response : List UInt8) : Prop :=
  if stored = [] then response = []
  else response.length = 20 ∧ sha1 (xor response (sha1 (nonce ++ stored))) = stored

/-- caching_sha2_password, fast path: `response XOR SHA256(stored ++ nonce)` must hash to `stored` -/
def cachingAccepts (sha256 : List UInt8 → List UInt8) (stored nonce response : List UInt8) : Prop :=
  if stored = [] then response = []
  else response.length = 32 ∧ sha256 (xor response (sha256 (stored ++ nonce))) = stored

instance (h : List UInt8 → List UInt8) (s n r : List UInt8) : Decidable (nativeAccepts h s n r) := by
  unfold nativeAccepts; infer_instance
instance (h : List UInt8 → List UInt8) (s n r : List UInt8) : Decidable (cachingAccepts h s n r) := by
  unfold cachingAccepts; infer_instance

end Mybin.Spec
