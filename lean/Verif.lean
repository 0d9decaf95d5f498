import Verif.Props.KVForm
import Verif.Props.Cryptutil
import Verif.Props.DH
import Verif.Props.Oidutil
import Verif.Props.Path
import Verif.Props.Urinorm
import Verif.Props.Message
import Verif.Props.Association
import Verif.Props.Nonce
import Verif.Props.MemStore
import Verif.Props.SqlStore
import Verif.Props.FileNames
import Verif.Props.FileNonce
import Verif.Props.FileAssoc
import Verif.Props.TrustRoot
import Verif.Props.ServerAuth
import Verif.Lemmas.Utf8
import Verif.Props.ServerCodec
import Verif.Props.ServerEncode
import Verif.Props.ServerAnswer
import Verif.Props.ServerAssociate
import Verif.Props.Consumer
import Verif.Props.ConsumerSigned
import Verif.Props.ConsumerAccepts
import Verif.Props.ConsumerAssociate
import Verif.Props.Refusal
import Verif.Props.Replay
import Verif.Props.Associate
import Verif.Props.Manager
import Verif.Props.Session
import Verif.Props.Yadis
import Verif.Props.Discover
import Verif.Props.DiscoverDoc
import Verif.Props.DiscoverXri
import Verif.Props.Transport
import Verif.Props.Sreg
import Verif.Props.AuthRequest
import Verif.Props.Ax
import Verif.Props.AxValues
import Verif.Props.AxArrive
import Verif.Props.Pape
import Verif.Props.PapeResponse
import Verif.Props.PapeArrive
import Verif.Props.Accept
import Verif.Props.Fetchers
import Verif.Props.Honest
import Verif.Props.Login
import Verif.Props.Form
import Verif.Props.Authentic
import Verif.Props.AuthenticExt
import Verif.Props.Serve
import Verif.Props.MessageClash
import Verif.Props.ConsumerRaise
import Verif.Props.Filters
import Verif.Props.RealmWeb
import Verif.Props.Xri
import Verif.Props.XriEscape
import Verif.Props.Expiry
import Verif.Props.ReplayConc
import Verif.Props.FileRaise
import Verif.Props.FileSetup
import Verif.Props.Provider
import Verif.Props.Vouched
import Verif.Props.LoginExt
import Verif.Props.LoginSql
import Verif.Props.LoginSelect
import Verif.Props.AnyGroup
import Verif.Props.Logins
import Verif.Props.Shown
import Verif.Props.SqlText
import Verif.Props.SqlConc
import Verif.Props.Registry
import Verif.Props.Pape2
import Verif.Props.Asked
import Verif.Props.MemConc
import Verif.Props.NonceRead
import Verif.Props.Negotiate
import Verif.Props.Completion
import Verif.Props.Visitor
import Verif.Props.Beginning
import Verif.Props.Published
