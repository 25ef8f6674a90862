import Verif.Spec.CamEndToEnd
import Verif.Spec.ErrorCodes
/-!
# Specification: a camera that can be logged into, and the end of all failures
-/

namespace Kasa.CamEndToEnd
open SslAes SslAesSpec
open EndToEnd (Program)

/-- The device can be logged into: it knows the user's name or the default one, and was given the user's password, of which it keeps
the hash (when it keeps the MD5 hash, no proof for the SHA-256 hash is one for it as well). -/
structure Owned (h : Hashes) (d : Device) (cfg : Config) : Prop where
  default : cfg.defaults.1 ≠ ""
  kept : ∀ u, cfg.creds = none → cfg.stored = some u → u.1 ≠ ""
  name : (∃ u, cfg.username = some u ∧ u ≠ "" ∧ d.knows u = true) ∨ d.knows cfg.defaults.1 = true
  less : d.secure = false → d.stored = md5 h (utf8 (password cfg))
  secure : d.secure = true → d.stored = sha h (utf8 (password cfg)) ∨ d.stored = md5 h (utf8 (password cfg)) ∧
    ∀ cn sn, sha h (cn ++ sha h (utf8 (password cfg)) ++ sn) ≠ sha h (cn ++ md5 h (utf8 (password cfg)) ++ sn)

/-- How a probe for a name that is not known is answered: with an error code that offers no login, or with the one for a wrong user
name inside. -/
def Denies (v : Json) : Prop :=
  (∃ n, v.get? "error_code" = some (.num n) ∧ n ≠ -40413 ∧ n ≠ -40401) ∨
    (v.get? "error_code" = some (.num (-40401)) ∧ v.get? "data" = none ∧ datum v "code" = some (.num (-40411)))

/-- How a request is refused: it is to be tried again, or the login is not valid. -/
def Refuses (v : Json) : Prop :=
  ∃ n, v.get? "error_code" = some (.num n) ∧ (CodesSpec.Retryable n ∨ CodesSpec.Authentication n)

/-- From some time on nothing goes wrong. -/
structure Chance.CalmFrom (x : Chance) (n : Nat) : Prop where
  fate : ∀ k, n ≤ k → x.fate k = .fine
  restart : ∀ k, n ≤ k → x.restart k = false
  plainly : ∀ k, n ≤ k → x.plainly k = false
  token : ∀ k, n ≤ k → (x.token k).truthy = true
  denial : ∀ k, n ≤ k → ∃ v, x.denial k = (200, v) ∧ Denies v
  refusal : ∀ k, n ≤ k → ∃ v, x.refusal k = (200, v) ∧ Refuses v

/-- The device reports success on everything that is asked. -/
def Successful {α : Type} (p : Program α) : Prop := ∀ j a, AesSpec.successful (p.run j a).1 = true

end Kasa.CamEndToEnd
