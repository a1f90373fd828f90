import Verif.Model.Handler
import Verif.Lemmas.Authorize
/-!
# Histories of API calls around one session

`k` is the value `begin` returned for the session.
-/

namespace Verif.Spec.InFlight
open Verif Verif.Handler

/-- Calls that other users of the handler may make while session `k` is in flight: random session values
lie in `K` and do not repeat (so that no other `begin` gets `k`), `close` with an explicit issuer is given
a session value, and `k` is not cleared. -/
def CallOk (K : String → Prop) (k : String) : Ext × Call → Prop
  | (x, .begin _ _ _ _) => K (x.rnd "init_state") ∧ x.rnd "init_state" ≠ k
  | (_, .close s _ _) => K s
  | (_, .clear s) => s ≠ k
  | _ => True

/-- A random session value is not empty. -/
def StateDrawn : Ext × Call → Prop
  | (x, .begin _ _ _ _) => x.rnd "init_state" ≠ ""
  | _ => True

/-- In this call the provider kept as `i` is not set up anew: if `begin` ends up there, it was named by
`i`. -/
def NotReplaced (i : String) (h : Handler) : Ext × Call → Prop
  | (x, .begin issuer user _ b) => (clientSetup x issuer user b h).1 = .ok i → issuer = i
  | _ => True

/-- `NotReplaced` for every call of a history. -/
def NeverReplaced (i : String) : List (Ext × Call) → Handler → Prop
  | [], _ => True
  | xc :: l, h => NotReplaced i h xc ∧ NeverReplaced i l (exec xc.1 xc.2 h).2

/-- No client and no configuration of the handler has a state configured for the authorization service. -/
structure PlainHandler (h : Handler) : Prop where
  configs : ∀ n cc, (n, cc) ∈ h.configs → PlainConf cc.srvConf
  clients : ∀ i c, (i, c) ∈ h.issuer2rp → PlainConf c.conf

/-- A configuration in which the provider has one name: metadata of the provider that are configured (not
in the default configuration `''`) name the issuer that is configured, if any, and other issuers than the
one asked for are not tolerated in discovered metadata. -/
structure OneName (n : String) (cc : ClientConf) : Prop where
  strict : Dict.has (confObj cc.config "allow") "issuer_mismatch" = false
  static : confObj cc.config "provider_info" = [] ∨
    (n ≠ "" ∧ ∀ v, Dict.get? (confObj cc.config "provider_info") "issuer" = some v → v = .str (confIssuer cc.config))

end Verif.Spec.InFlight
