import Verif.Model.Lib

/-!
# A client program that has a public key and no secret key

Two numbers `a`, `b` of the client's choice; `R = b Q + a G`, `r = x(R)`, `s = r / b`, `m = a s`.  All steps are calls of public functions.
-/

namespace Verif.Spec

/-- A message and a signature made from a public key. -/
def forge (pk : PublicKey) (a b : SecretKey) : Exec (Message × Signature) := do
  let t ← PublicKey.tweakMulAssign pk b
  let t ← PublicKey.tweakAddAssign t.1 a
  let c ← PublicKey.serializeCompressed t.1
  let r ← Scalar.setB32 (arrayRef32 c 1 (by decide))
  let i ← Scalar.inv b.sc
  let s ← Scalar.mul r.1 i
  let m ← Scalar.mul a.sc s
  pure (⟨m⟩, ⟨r.1, s⟩)

end Verif.Spec
