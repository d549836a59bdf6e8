import Verif.Model.Authorization
import Verif.Props.TokenString
import Verif.Props.Store
import Verif.Props.Uri
/-! A small concrete provider, used to show that the hypotheses of the theorems about the endpoints can be met. -/
namespace Verif
open Spec

/-- Writing blanks differently. -/
def esc : Str → Str
  | [] => []
  | ' ' :: s => '_' :: 'b' :: esc s
  | '_' :: s => '_' :: 'u' :: esc s
  | c :: s => c :: esc s

def unesc : Str → Str
  | [] => []
  | '_' :: 'b' :: s => ' ' :: unesc s
  | '_' :: 'u' :: s => '_' :: unesc s
  | c :: s => c :: unesc s

theorem unesc_esc (s : Str) : unesc (esc s) = s := by
  induction s with
  | nil => rfl
  | cons c s ih =>
    by_cases h1 : c = ' '
    · subst h1; simp [esc, unesc, ih]
    · by_cases h2 : c = '_'
      · subst h2; simp [esc, unesc, ih]
      · have e : esc (c :: s) = c :: esc s := by
          rw [esc]
          · rintro rfl; exact h1 rfl
          · rintro rfl; exact h2 rfl
        rw [e, unesc]
        · rw [ih]
        · rintro _ rfl; exact absurd rfl h2
        · rintro _ rfl; exact absurd rfl h2

theorem esc_blank (s : Str) : ' ' ∉ esc s := by
  induction s with
  | nil => simp [esc]
  | cons c s ih =>
    by_cases h1 : c = ' '
    · subst h1; simp [esc, ih]
    · by_cases h2 : c = '_'
      · subst h2; simp [esc, ih]
      · have e : esc (c :: s) = c :: esc s := by
          rw [esc]
          · rintro rfl; exact h1 rfl
          · rintro rfl; exact h2 rfl
        rw [e]
        simp only [List.mem_cons, not_or]
        exact ⟨fun h => h1 h.symm, ih⟩

/-- The toy crypto with blank-free token strings. -/
def demoCrypto : TokenCrypto where
  fernetSeal k n m := esc (toyCrypto.fernetSeal k n m)
  fernetOpen k t := toyCrypto.fernetOpen k (unesc t)
  jwtPack k n s t e := esc (toyCrypto.jwtPack k n s t e)
  jwtUnpack k t := toyCrypto.jwtUnpack k (unesc t)

theorem demoCrypto_laws : TokenCryptoLaws demoCrypto where
  open_seal k n m := by simp only [demoCrypto, unesc_esc]; exact toyCrypto_laws.open_seal k n m
  open_other k k' n m h := by simp only [demoCrypto, unesc_esc]; exact toyCrypto_laws.open_other k k' n m h
  unpack_pack k n s t e := by simp only [demoCrypto, unesc_esc]; exact toyCrypto_laws.unpack_pack k n s t e
  unpack_other k k' n s t e h := by simp only [demoCrypto, unesc_esc]; exact toyCrypto_laws.unpack_other k k' n s t e h
  open_pack k k' n s t e := by simp only [demoCrypto, unesc_esc]; exact toyCrypto_laws.open_pack k k' n s t e
  unpack_seal k k' n m := by simp only [demoCrypto, unesc_esc]; exact toyCrypto_laws.unpack_seal k k' n m

def demoHandlers : TokenHandler where
  code := some ⟨.jwt, c!"A", 5, c!"k1"⟩
  accessToken := some ⟨.jwt, c!"T", 5, c!"k2"⟩
  refreshToken := some ⟨.jwt, c!"R", 5, c!"k3"⟩

/-- Usage rules like the ones in the documentation's example configuration. -/
def demoRules : Dict UsageRules :=
  [(tAuthorizationCode, { maxUsage := some 1, supportsMinting := some [tAccessToken, tRefreshToken, c!"id_token"],
                          expiresIn := some 3 }),
   (tAccessToken, { expiresIn := some 4 }),
   (tRefreshToken, { supportsMinting := some [tAccessToken, tRefreshToken], expiresIn := some 20 })]

def demoSf : SubFuncs := fun t =>
  if t = c!"public" then some (fun u _ => c!"pub-" ++ u)
  else if t = c!"pairwise" then some (fun u s => u ++ c!"@" ++ s.getD [])
  else none

def demoEnv : Env where
  lib := demoLib
  parEnabled := true
  fetch := fun _ _ r => .ok r
  oidc := true
  pkce := none
  denyUnknown := true
  scopesSupported := [c!"openid", c!"offline_access", c!"email"]
  gc := { usageRules := some demoRules, expiresIn := some 1000 }
  ccfg := { modules := [(c!"userinfo", { byScope := true }), (c!"id_token", {}), (c!"introspection", {}),
                        (c!"access_token", {})],
            scope2claims := [(c!"openid", [c!"sub"]), (c!"email", [c!"email"]), (c!"offline_access", [])],
            scopesSupported := [c!"openid", c!"offline_access", c!"email"] }
  sf := demoSf
  cr := demoCrypto
  th := demoHandlers

def demoClient (cb : Str) : Client :=
  { redirectUris := [(cb, [])], responseTypes := [c!"code", c!"code id_token token"] }

/-- Two clients. -/
def demoDb : Cdb := fun c =>
  if c = c!"c1" then some (demoClient c!"https://rp/cb") else if c = c!"c2" then some (demoClient c!"https://rp2/cb") else none

def demoReq (rt : List Str) : AuthReq :=
  { clientId := c!"c1", responseType := rt, scope := [c!"openid", c!"offline_access"], redirectUri := some c!"https://rp/cb",
    state := some c!"st" }

def mintIn (n : Str) : MintIn := { rnd := [], nonce := n, id := n }

/-- The whole authorization endpoint on `demoReq rt` for the user `diana`, who is logged in. -/
def demoAuthz (rt : List Str) (mode : Option Str) : Cdb × Store × AuthzAnswer :=
  authzProcess demoEnv demoDb Store.empty 1 c!"g1" (mintIn c!"n1") (mintIn c!"n2") (.val c!"IDT")
    { ident := .plain c!"diana" } { demoReq rt with responseMode := mode }

/-- The reply of the demo, without the URI. -/
def demoReply (rt : List Str) (mode : Option Str) : Option (Out RespArgs × Placement) :=
  match (demoAuthz rt mode).2.2 with
  | .reply r => some (r.content, r.placement)
  | _ => none

/-- Which of code, access token, ID token a reply has, and where. -/
def demoShape (rt : List Str) (mode : Option Str) : Option ((Bool × Bool × Bool) × Placement) :=
  match demoReply rt mode with
  | some (.val a, p) => some ((a.code.isSome, a.accessToken.isSome, a.idToken.isSome), p)
  | _ => none

example : demoShape [c!"code"] none = some ((true, false, false), .query) := by decide
example : demoShape [c!"code", c!"id_token", c!"token"] none = some ((true, true, true), .fragment) := by decide
example : demoShape [c!"code", c!"token"] (some c!"form_post") = some ((true, true, false), .formPost) := by decide
example : demoReply [c!"code", c!"token"] (some c!"query") = some (.errMsg c!"invalid_request", .fragment) := by decide
example : demoReply [c!"code", c!"foo"] none = some (.errMsg c!"invalid_request", .fragment) := by decide

end Verif
