import Verif.Lemmas.Blind
import Verif.Lemmas.ClaimsOrigin
import Verif.Lemmas.ClientFrame
import Verif.Lemmas.CrashLast
import Verif.Lemmas.CrashMoves
import Verif.Lemmas.CrashTree
import Verif.Lemmas.Dict
import Verif.Lemmas.Gone
import Verif.Lemmas.Grant
import Verif.Lemmas.GrantHist
import Verif.Lemmas.GrantList
import Verif.Lemmas.Honest
import Verif.Lemmas.HonestAuthz
import Verif.Lemmas.Lasting
import Verif.Lemmas.LastingRefresh
import Verif.Lemmas.Local
import Verif.Lemmas.LocalOps
import Verif.Lemmas.LocalToken
import Verif.Lemmas.LocalTrace
import Verif.Lemmas.Manager
import Verif.Lemmas.Metadata
import Verif.Lemmas.Moves
import Verif.Lemmas.OnlyTokens
import Verif.Lemmas.Open
import Verif.Lemmas.Pack
import Verif.Lemmas.Pieces
import Verif.Lemmas.PiecesKeys
import Verif.Lemmas.Provider
import Verif.Lemmas.ProviderInv
import Verif.Lemmas.SessionInfo
import Verif.Lemmas.Store
import Verif.Lemmas.StoreFrame
import Verif.Lemmas.StoreNd
import Verif.Lemmas.Str
import Verif.Lemmas.SysAuthz
import Verif.Lemmas.SysInv
import Verif.Lemmas.SysMoves
import Verif.Lemmas.SysSteps
import Verif.Lemmas.SysToken
import Verif.Lemmas.TokenString
import Verif.Lemmas.TokenSuccess
import Verif.Lemmas.Unlimited
import Verif.Lemmas.WebElsewhere
import Verif.Lemmas.WebFlow
import Verif.Lemmas.WebFrame
import Verif.Lemmas.WebRefresh
import Verif.Lemmas.WebTree
import Verif.Lemmas.Work
import Verif.Model.Authorization
import Verif.Model.AuthzHandling
import Verif.Model.Broker
import Verif.Model.Claims
import Verif.Model.Client
import Verif.Model.ClientAuthn
import Verif.Model.Cookie
import Verif.Model.CookieAttr
import Verif.Model.Crash
import Verif.Model.CrashMgr
import Verif.Model.Database
import Verif.Model.Deliver
import Verif.Model.Grant
import Verif.Model.GrantOps
import Verif.Model.IdToken
import Verif.Model.IdTokenServe
import Verif.Model.Keys
import Verif.Model.Logout
import Verif.Model.LogoutToken
import Verif.Model.Manager
import Verif.Model.ManagerOps
import Verif.Model.ManyThreads
import Verif.Model.Metadata
import Verif.Model.NoAuthn
import Verif.Model.Pack
import Verif.Model.Payload
import Verif.Model.Pieces
import Verif.Model.Provider
import Verif.Model.PushThreads
import Verif.Model.Registration
import Verif.Model.RequestObject
import Verif.Model.Resource
import Verif.Model.SelfJwt
import Verif.Model.Serial
import Verif.Model.SessionInfo
import Verif.Model.SharedRules
import Verif.Model.Storage
import Verif.Model.SubId
import Verif.Model.System
import Verif.Model.Threads
import Verif.Model.Token
import Verif.Model.TokenEndpoint
import Verif.Model.TokenStart
import Verif.Model.TokenString
import Verif.Model.TokenThreads
import Verif.Model.Types
import Verif.Model.Uri
import Verif.Model.UsageLookup
import Verif.Model.UserAuthn
import Verif.Model.UserInfo
import Verif.Model.Work
import Verif.Props.AuthzErrors
import Verif.Props.AuthzParse
import Verif.Props.AuthzResponse
import Verif.Props.AuthzSession
import Verif.Props.Broker
import Verif.Props.Claims
import Verif.Props.ClaimsGranted
import Verif.Props.ClientAuthn
import Verif.Props.ClientIsolation
import Verif.Props.CodeTheft
import Verif.Props.Cookie
import Verif.Props.CookieAttr
import Verif.Props.Crash
import Verif.Props.CrashTokens
import Verif.Props.Deliver
import Verif.Props.DeliverAuthz
import Verif.Props.DeliverClaims
import Verif.Props.DeliverMore
import Verif.Props.Demo
import Verif.Props.Given
import Verif.Props.GivenClaims
import Verif.Props.GivenDemo
import Verif.Props.GivenRefresh
import Verif.Props.GivenTermsDemo
import Verif.Props.Gone
import Verif.Props.GoneDemo
import Verif.Props.Grant
import Verif.Props.GrantDeep
import Verif.Props.GrantList
import Verif.Props.GrantMore
import Verif.Props.Honest
import Verif.Props.IdToken
import Verif.Props.IdTokenFront
import Verif.Props.IdTokenMore
import Verif.Props.IdTokenWeb
import Verif.Props.IdTokenWebDemo
import Verif.Props.Implicit
import Verif.Props.IntrospectWeb
import Verif.Props.Isolation
import Verif.Props.Lasting
import Verif.Props.LastingAuthz
import Verif.Props.LastingAuthzDemo
import Verif.Props.LastingCode
import Verif.Props.LastingCodeDemo
import Verif.Props.LastingDemo
import Verif.Props.LastingRefresh
import Verif.Props.LastingRefreshDemo
import Verif.Props.Lifetime
import Verif.Props.LoginHintAcr
import Verif.Props.LoginValidity
import Verif.Props.Logout
import Verif.Props.LogoutMore
import Verif.Props.LogoutThreads
import Verif.Props.LogoutToken
import Verif.Props.LogoutWeb
import Verif.Props.Metadata
import Verif.Props.MetadataMore
import Verif.Props.MetadataServe
import Verif.Props.MetadataUse
import Verif.Props.NoAuthn
import Verif.Props.Payload
import Verif.Props.Provenance
import Verif.Props.Provider
import Verif.Props.ProviderAuthn
import Verif.Props.ProviderDemo
import Verif.Props.ProviderPush
import Verif.Props.ProviderUri
import Verif.Props.PushThreads
import Verif.Props.PushedOnce
import Verif.Props.PushedSame
import Verif.Props.RefusedWeb
import Verif.Props.RegLasts
import Verif.Props.Registration
import Verif.Props.RegistrationExact
import Verif.Props.RegistrationPrefs
import Verif.Props.RegistrationUris
import Verif.Props.RequestObject
import Verif.Props.Resource
import Verif.Props.ResourceErrors
import Verif.Props.SelfJwt
import Verif.Props.Serial
import Verif.Props.SerialDefaults
import Verif.Props.SessionInfo
import Verif.Props.SharedRules
import Verif.Props.Storage
import Verif.Props.Store
import Verif.Props.StoreDelete
import Verif.Props.StoreNew
import Verif.Props.Strings
import Verif.Props.SubjectTypes
import Verif.Props.ThreadRaces
import Verif.Props.Threads
import Verif.Props.TokenEndpoint
import Verif.Props.TokenErrors
import Verif.Props.TokenHistory
import Verif.Props.TokenPad
import Verif.Props.TokenRefresh
import Verif.Props.TokenStart
import Verif.Props.TokenString
import Verif.Props.TokenThreads
import Verif.Props.Uri
import Verif.Props.UsageLookup
import Verif.Props.UserAuthn
import Verif.Props.UserInfo
import Verif.Props.WebFlow
import Verif.Props.WebRefresh
import Verif.Props.WebTree
import Verif.Props.Work
import Verif.Py
import Verif.Spec.Authorization
import Verif.Spec.Broker
import Verif.Spec.Claims
import Verif.Spec.ClaimsGranted
import Verif.Spec.ClientAuthn
import Verif.Spec.Cookie
import Verif.Spec.Crash
import Verif.Spec.Crypto
import Verif.Spec.Deliver
import Verif.Spec.Given
import Verif.Spec.Gone
import Verif.Spec.Grant
import Verif.Spec.GrantHist
import Verif.Spec.GrantList
import Verif.Spec.Honest
import Verif.Spec.IdToken
import Verif.Spec.IdTokenWeb
import Verif.Spec.Isolation
import Verif.Spec.Lasting
import Verif.Spec.LastingCode
import Verif.Spec.LastingRefresh
import Verif.Spec.Lifetime
import Verif.Spec.Logout
import Verif.Spec.LogoutThreads
import Verif.Spec.LogoutToken
import Verif.Spec.Metadata
import Verif.Spec.NoAuthn
import Verif.Spec.Provenance
import Verif.Spec.Provider
import Verif.Spec.ProviderAuthn
import Verif.Spec.PushedOnce
import Verif.Spec.PushedSame
import Verif.Spec.Refusals
import Verif.Spec.RefusedWeb
import Verif.Spec.Registration
import Verif.Spec.RegistrationExact
import Verif.Spec.RequestObject
import Verif.Spec.Resource
import Verif.Spec.SelfJwt
import Verif.Spec.Serial
import Verif.Spec.SessionInfo
import Verif.Spec.SharedRules
import Verif.Spec.Store
import Verif.Spec.Strings
import Verif.Spec.System
import Verif.Spec.TokenStart
import Verif.Spec.TokenThreads
import Verif.Spec.Uri
import Verif.Spec.UserAuthn
import Verif.Spec.WebFlow
import Verif.Spec.WebRefresh
import Verif.Spec.Work
