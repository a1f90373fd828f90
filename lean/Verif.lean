import Verif.Props.Store
import Verif.Props.Util
import Verif.Props.ClientAuth
import Verif.Props.Cookie
import Verif.Props.Discovery
import Verif.Props.Registration
import Verif.Props.WebFinger
import Verif.Lemmas.World
import Verif.Lemmas.Frame
import Verif.Props.Tokens
import Verif.Props.Logout
import Verif.Props.Userinfo
import Verif.Props.HttpStatus
import Verif.Props.Requests
import Verif.Props.TokenRequest
import Verif.Props.Finalize
import Verif.Props.SessionTokens
import Verif.Props.FinalizeResult
import Verif.Props.SessionUse
import Verif.Props.Clear
import Verif.Props.InFlight
import Verif.Props.Begin
import Verif.Props.Setup
import Verif.Props.AddOn
import Verif.Props.Http
import Verif.Props.Distributed
import Verif.Props.RequestObject
import Verif.Props.Isolation
import Verif.Props.ClientCredentials
import Verif.Props.OAuth2Auth
import Verif.Props.CheckSession
import Verif.Props.OAuth2Token
import Verif.Props.Asked
import Verif.Props.Honest
import Verif.Props.HonestHistory
import Verif.Props.Authenticate
import Verif.Props.NewClient
import Verif.Props.Ready
import Verif.Props.FirstUse
import Verif.Props.HonestRefresh
import Verif.Props.DpopProof
import Verif.Props.Schedules
import Verif.Props.Retry
import Verif.Props.Backend
import Verif.Props.Target
import Verif.Props.RequestUris
import Verif.Props.Life
import Verif.Props.Alone
import Verif.Model.Entity
import Verif.Lemmas.Made
import Verif.Props.Assembly
import Verif.Props.ReadBack
import Verif.Props.Formats
import Verif.Props.Transport
import Verif.Props.Configure
import Verif.Props.Aggregated
import Verif.Props.Secrets
import Verif.Props.Keys
import Verif.Props.Persist
import Verif.Props.Begun
import Verif.Props.Random
import Verif.Props.WebApp
import Verif.Props.SiteLogin
import Verif.Model.Tier2
import Verif.Props.Tier2
import Verif.Props.Flows
import Verif.Props.OneSubject
import Verif.Props.OAuth2Login
import Verif.Props.ReturnedInfo
import Verif.Model.CookieDealer
import Verif.Props.CookieLife
import Verif.Model.Logging
import Verif.Props.Logs
import Verif.Lemmas.Carried
import Verif.Props.DpopBound
import Verif.Props.DpopLogin
import Verif.Model.Rush
import Verif.Lemmas.Rush
import Verif.Props.Rush
import Verif.Props.RushKept
import Verif.Props.RushFirst
import Verif.Props.Traffic
import Verif.Model.Desk
import Verif.Lemmas.Desk
import Verif.Lemmas.DeskGood
import Verif.Props.Desk
import Verif.Props.DeskBegun
import Verif.Props.DeskWhole
import Verif.Model.Office
import Verif.Lemmas.Office
import Verif.Props.Office
import Verif.Props.OfficeHistory
import Verif.Model.Defaults
import Verif.Lemmas.Defaults
import Verif.Props.Defaults
import Verif.Props.Addresses
