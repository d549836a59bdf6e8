import Verif.Model.CookieAttr
import Verif.Props.Cookie
import Verif.Lemmas.Dict
set_option linter.unusedSimpArgs false
set_option linter.unusedVariables false
/-! The attributes of cookies: C54, C72. -/
namespace Verif
open Spec

namespace Spec
/-- The browser drops the cookie on receipt: its expiry is not in the future. -/
def Dropped (now : Int) (m : Morsel) : Prop := ∃ t, m.expires = some t ∧ t ≤ now
end Spec

theorem createCookie_ok {cr : CookieCrypto} {d : CookieDealer} {df : CookieDefaults} {now : Int} {iv value typ name : Str} {ttl : Int}
    {kill : Bool} {ss : Str} {ho : Bool} {j : Jar} (h : createCookie cr d df now iv value typ name ttl kill ss ho = .ok j) :
    ∃ v, createCookieValue cr d now iv value typ = .ok v ∧
      j = [(name, makeCookieContent now v (cookieDomain df) (if df.path ≠ [] then some df.path else none) (cookieTtl df ttl kill) ss ho)] := by
  unfold createCookie at h
  split at h
  · cases h
  · cases h; exact ⟨_, by assumption, rfl⟩

/-- **C72** The attributes of a cookie: under the given name one cookie, sent over TLS only; hidden from scripts unless asked
otherwise; it lives for the asked number of seconds, for the configured maximum age if a negative number is asked, and until
the browser is closed if that is zero; with `kill` it is expired at once; it has the configured path and domain, except that
the names of the local host are no domain. -/
theorem C72_cookie_attributes (cr : CookieCrypto) (d : CookieDealer) (df : CookieDefaults) (now : Int) (iv value typ name : Str)
    (ttl : Int) (kill : Bool) (ss : Str) (ho : Bool) (j : Jar)
    (h : createCookie cr d df now iv value typ name ttl kill ss ho = .ok j) :
    ∃ m, j = [(name, m)] ∧ m.secure = true ∧ m.httpOnly = ho ∧ createCookieValue cr d now iv value typ = .ok m.value ∧
      (m.sameSite = if ss = [] then none else some ss) ∧
      ((∀ p, m.path = some p ↔ p = df.path ∧ p ≠ []) ∧
        ∀ x, m.domain = some x ↔ x = df.domain ∧ x ≠ [] ∧ x ≠ c!"localhost" ∧ x ≠ c!"127.0.0.1" ∧ x ≠ c!"0.0.0.0") ∧
      (kill = true → Spec.Dropped now m) ∧
      (kill = false → 0 < ttl → m.expires = some (now + ttl)) ∧
      (kill = false → ttl = 0 → m.expires = none) ∧
      (kill = false → ttl < 0 → df.maxAge = 0 → m.expires = none) ∧
      (kill = false → ttl < 0 → df.maxAge ≠ 0 → m.expires = some (now + df.maxAge)) := by
  obtain ⟨v, hv, rfl⟩ := createCookie_ok h
  refine ⟨_, rfl, rfl, rfl, hv, ?_, ⟨?_, ?_⟩, ?_, ?_, ?_, ?_, ?_⟩
  · unfold makeCookieContent; by_cases e : ss = [] <;> simp [e]
  · intro p
    unfold makeCookieContent
    constructor
    · intro hp
      dsimp only at hp
      split at hp
      · rename_i hne; cases hp; exact ⟨rfl, hne⟩
      · cases hp
    · rintro ⟨rfl, hne⟩
      simp [hne]
  · intro x
    unfold makeCookieContent cookieDomain
    constructor
    · intro hp
      dsimp only at hp
      split at hp
      · rename_i hne
        cases hp
        simp only [List.mem_cons, List.not_mem_nil, or_false, not_or] at hne
        exact ⟨rfl, hne⟩
      · cases hp
    · rintro ⟨rfl, hne⟩
      have : df.domain ≠ [] ∧ df.domain ∉ [c!"localhost", c!"127.0.0.1", c!"0.0.0.0"] := by
        simp only [List.mem_cons, List.not_mem_nil, or_false, not_or]; exact hne
      dsimp only
      rw [if_pos this]
  · rintro rfl
    exact ⟨now + -1, by simp [makeCookieContent, cookieTtl], by omega⟩
  · rintro rfl hp
    have e1 : ¬ ttl < 0 := by omega
    have e2 : ttl ≠ 0 := by omega
    simp [makeCookieContent, cookieTtl, e1, e2]
  · rintro rfl rfl
    simp [makeCookieContent, cookieTtl]
  · rintro rfl hn hz
    simp [makeCookieContent, cookieTtl, hn, hz]
  · rintro rfl hn hz
    simp [makeCookieContent, cookieTtl, hn, hz]

/-- **C54**, for single cookies: `delete_cookie` makes the browser drop the cookie of that name; it is sent over TLS
only and hidden from scripts. -/
theorem C54_delete_cookie (cr : CookieCrypto) (d : CookieDealer) (df : CookieDefaults) (now : Int) (iv name : Str) (j : Jar)
    (h : deleteCookie cr d df now iv name = .ok j) : ∃ m, j = [(name, m)] ∧ Spec.Dropped now m ∧ m.secure = true ∧ m.httpOnly = true := by
  obtain ⟨m, h1, h3, h4, _, _, _, h2, _⟩ := C72_cookie_attributes _ _ _ _ _ _ _ _ _ _ _ _ _ h
  exact ⟨m, h1, h2 rfl, h3, h4⟩

theorem killCookies_ok {cr : CookieCrypto} {d : CookieDealer} {df : CookieDefaults} {now : Int} {iv1 iv2 mgmt sess : Str} {j : Jar}
    (h : killCookies cr d df now iv1 iv2 mgmt sess = .ok j) :
    ∃ v1 v2, createCookieValue cr d now iv1 c!"none" c!"session" = .ok v1 ∧
      createCookieValue cr d now iv2 c!"none" c!"session" = .ok v2 ∧
      j = Dict.set [(mgmt, makeCookieContent now v1 (cookieDomain df) (if df.path ≠ [] then some df.path else none) 0 [] true)] sess
        { makeCookieContent now v2 (cookieDomain df) (if df.path ≠ [] then some df.path else none) 0 [] true with value := sess } := by
  unfold killCookies at h
  cases h1 : createCookie cr d df now iv1 c!"none" c!"session" mgmt 0 false [] true with
  | error e => simp [h1] at h
  | ok j1 =>
    cases h2 : createCookie cr d df now iv2 c!"none" c!"session" sess 0 false [] true with
    | error e => simp [h1, h2] at h
    | ok j2 =>
      obtain ⟨v1, e1, rfl⟩ := createCookie_ok h1
      obtain ⟨v2, e2, rfl⟩ := createCookie_ok h2
      simp only [h1, h2] at h
      cases h
      exact ⟨v1, v2, e1, e2, by simp [appendCookie, appendOne, cookieTtl]⟩

/-- **C54** is false of the code, for every configuration: no cookie made by `kill_cookies` has an expiry, so that the browser
drops none of them (the time to live it asks for, 0, means "no expiry"). -/
theorem C54_kill_cookies_expires_nothing (cr : CookieCrypto) (d : CookieDealer) (df : CookieDefaults) (now : Int)
    (iv1 iv2 mgmt sess : Str) (j : Jar) (h : killCookies cr d df now iv1 iv2 mgmt sess = .ok j) :
    ∀ p ∈ j, p.2.expires = none ∧ ∀ t, ¬ Spec.Dropped t p.2 := by
  obtain ⟨v1, v2, _, _, rfl⟩ := killCookies_ok h
  have key : ∀ p ∈ Dict.set [(mgmt, makeCookieContent now v1 (cookieDomain df) (if df.path ≠ [] then some df.path else none) 0 [] true)]
      sess { makeCookieContent now v2 (cookieDomain df) (if df.path ≠ [] then some df.path else none) 0 [] true with value := sess },
      p.2.expires = none := by
    intro p hp
    by_cases e : mgmt = sess
    · simp [Dict.set, e] at hp; subst hp; rfl
    · simp [Dict.set, e] at hp; rcases hp with rfl | rfl <;> rfl
  intro p hp
  refine ⟨key p hp, fun t ht => ?_⟩
  obtain ⟨x, hx, _⟩ := ht
  rw [key p hp] at hx; cases hx

/-- **C54**, what holds instead: the two cookies do replace those of the login.  The session management cookie has the value
"none"; the session cookie has — because of `append_cookie` — its own name as value, which is no cookie value at all, so that
the provider finds no session in it. -/
theorem C54_kill_cookies_replaces_partial (cr : CookieCrypto) (d : CookieDealer) (df : CookieDefaults) (now : Int)
    (iv1 iv2 mgmt sess : Str) (hne : mgmt ≠ sess) (hbar : '|' ∉ sess) (j : Jar)
    (h : killCookies cr d df now iv1 iv2 mgmt sess = .ok j) :
    (∃ m, Dict.get? j mgmt = some m ∧ createCookieValue cr d now iv1 c!"none" c!"session" = .ok m.value) ∧
    ∃ m, Dict.get? j sess = some m ∧ m.value = sess ∧ getCookieValue cr d m.value = .ok none := by
  obtain ⟨v1, v2, e1, _, rfl⟩ := killCookies_ok h
  refine ⟨⟨_, by rw [Dict.get?_set, if_neg hne]; simp [Dict.get?]; rfl, e1⟩, ⟨_, by rw [Dict.get?_set, if_pos rfl], rfl, ?_⟩⟩
  have hs : pySplit c!"|" sess = [sess] := by
    have := split_one_join '|' [sess] (by simp) (by simpa using hbar)
    simpa [pyJoin] using this
  unfold getCookieValue
  rw [hs]
  rfl

/-- `kill_cookies` at work. -/
example : (killCookies toyCookieCrypto ⟨some c!"k", none⟩ {} 10 [] [] c!"m" c!"s").toOption.map (·.map Prod.fst) = some [c!"m", c!"s"] := by
  rfl
example : (deleteCookie toyCookieCrypto ⟨some c!"k", none⟩ {} 10 [] c!"m").toOption.map (·.map fun p => p.2.expires) = some [some 9] := by
  rfl

end Verif
