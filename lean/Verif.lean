import Verif.Basic
import Verif.Bech32.Props
import Verif.Nip21.Props
import Verif.Hex.Props
import Verif.Config.Props
import Verif.Event.Props
import Verif.Nip13.Props
import Verif.Nip13.ParallelSpec
import Verif.Nip13.Parallel
import Verif.Nip13.ParallelProps
import Verif.Nip44.Props
import Verif.RelayProto.Props
import Verif.Filter.Props
import Verif.Filter.HeapProps
import Verif.Access.Model
import Verif.Access.Spec
import Verif.Access.Props
import Verif.Msg.Props
import Verif.Relay.Props
import Verif.Relay.Life
import Verif.Session.Props
import Verif.Session.Conc
import Verif.Text
import Verif.Json.Body
import Verif.Nip47.Model
import Verif.Nip47.Spec
import Verif.Nip47.Uri
import Verif.Nip47.Props
import Verif.Nip47.Params
import Verif.Nip51.Model
import Verif.Nip51.Spec
import Verif.Nip51.Lemmas
import Verif.Nip51.Props
import Verif.Nip51.Foreign
import Verif.Nip65.Model
import Verif.Nip65.Spec
import Verif.Nip65.Props
import Verif.Bech32.Bip173
import Verif.Nip21.Interop
import Verif.Nip10.Model
import Verif.Nip10.Spec
import Verif.Nip10.Props
import Verif.Nip18.Model
import Verif.Nip18.Spec
import Verif.Nip18.Props
import Verif.Nip25.Model
import Verif.Nip25.Props
import Verif.Nip26.Model
import Verif.Nip26.Spec
import Verif.Nip26.Props
import Verif.Nip05.Model
import Verif.Nip05.Spec
import Verif.Nip05.Props
import Verif.Nip05.Docs
import Verif.Nip05.Relays
import Verif.Json.NoNul
import Verif.Base64
import Verif.Gift.Model
import Verif.Gift.Spec
import Verif.Gift.Lemmas
import Verif.Gift.Props
import Verif.Nip49.Model
import Verif.Nip49.Spec
import Verif.Nip49.Lemmas
import Verif.Nip49.Props
import Verif.Hd.Words
import Verif.Hd.Model
import Verif.Hd.Spec
import Verif.Hd.Table
import Verif.Hd.Lemmas
import Verif.Hd.Props
import Verif.Hd.Path
import Verif.Zap.Model
import Verif.Zap.Spec
import Verif.Zap.Props
import Verif.Json.Says
import Verif.Event.Read
import Verif.Nip21.Accept
import Verif.Nip46.Model
import Verif.Nip46.Props
import Verif.Nip11.Model
import Verif.Nip11.Spec
import Verif.Nip11.Props
import Verif.Arena.Model
import Verif.Arena.Spec
import Verif.Arena.Lemmas
import Verif.Arena.Inv
import Verif.Arena.Nonce
import Verif.Arena.Props
import Verif.Arena.Cases
import Verif.Keys.Model
import Verif.Keys.Spec
import Verif.Keys.Props
import Verif.Keys.Ecdh
import Verif.Keys.Ctx
import Verif.Keys.CtxProps
import Verif.Nip04.Model
import Verif.Nip04.Props
import Verif.Features.Model
import Verif.Features.Props
import Verif.Own.Basic
import Verif.Own.Conn
import Verif.Own.ConnProps
import Verif.Own.Info
import Verif.Own.InfoProps
import Verif.Relay.Faults
import Verif.Relay.FaultProps
import Verif.Own.Deletion
import Verif.Own.DeletionProps
import Verif.Own.Ev
import Verif.Own.EvProps
import Verif.Own.Relay
import Verif.Own.RelaySpec
import Verif.Own.RelayLemmas
import Verif.Own.RelayProps
import Verif.Own.Uri
import Verif.Own.UriProps
import Verif.Own.Msg
import Verif.Own.MsgProps
import Verif.Own.Nip05
import Verif.Own.Nip05Props
import Verif.Own.Build
import Verif.Own.BuildProps
import Verif.Own.Mail
import Verif.Own.MailProps
import Verif.Own.Relays
import Verif.Own.RelaysProps
import Verif.Own.Lists
import Verif.Own.ListsProps
import Verif.Own.Deleg
import Verif.Own.DelegProps
import Verif.Own.Signer
import Verif.Own.SignerProps
import Verif.Own.Doc
import Verif.Own.DocProps
import Verif.Own.Sessions
import Verif.Own.SessionsSpec
import Verif.Own.SessionsLemmas
import Verif.Own.SessionsProps
import Verif.Json.Names
import Verif.Nip47.Plain
import Verif.Wipe.Basic
import Verif.Wipe.Spec
import Verif.Wipe.Keys
import Verif.Wipe.KeysProps
import Verif.Wipe.Hd
import Verif.Wipe.HdProps
import Verif.Wipe.WordsProps
import Verif.Wipe.Ncrypt
import Verif.Wipe.NcryptProps
import Verif.Wipe.Crypt
import Verif.Wipe.CryptProps
import Verif.Wipe.Gift
import Verif.Wipe.GiftProps
import Verif.Wipe.Text
import Verif.Wipe.TextProps
import Verif.Own.Crypt
import Verif.Own.CryptProps
import Verif.Relay.Threads
import Verif.Relay.ThreadsProps
import Verif.Own.Tree
import Verif.Own.TreeLemmas
import Verif.Own.TreeProps
import Verif.Own.Answers
import Verif.Own.AnswersProps
import Verif.Arena.Growth
import Verif.Own.Receipt
import Verif.Own.ReceiptProps
import Verif.Own.Quote
import Verif.Own.QuoteProps
import Verif.Own.Temp
import Verif.Own.TempProps
import Verif.Own.Response
import Verif.Own.ResponseProps
import Verif.RelayProto.Length
import Verif.RelayProto.LengthProps
import Verif.Config.Threads
import Verif.Config.ThreadsSpec
import Verif.Config.ThreadsProps
import Verif.Session.Races
import Verif.Session.RacesProps
import Verif.Own.Create
import Verif.Own.CreateProps
import Verif.Double.Model
import Verif.Double.Lemmas
import Verif.Double.Spec
import Verif.Double.Props
import Verif.Double.Convert
import Verif.Double.ConvertProps
import Verif.Double.MessageProps
import Verif.Session.History
import Verif.Double.AmountProps
import Verif.Own.Defined
import Verif.Session.Progress
import Verif.Nip47.Bare
import Verif.Nip47.BareProps
import Verif.Own.AnswersBare
import Verif.Own.AnswersBareProps
import Verif.Keys.Rng
import Verif.Keys.RngSpec
import Verif.Keys.RngProps
import Verif.Alias.Model
import Verif.Alias.Spec
import Verif.Alias.Props
import Verif.Outbuf.Model
import Verif.Outbuf.Spec
import Verif.Outbuf.Props
import Verif.Outbuf.Encode
import Verif.Outbuf.EncodeProps
import Verif.Journey.Spec
import Verif.Journey.Props
import Verif.Build.Check
import Verif.Build.Model
import Verif.Build.Props
import Verif.Build.Spec
import Verif.Build.Tables
import Verif.Build.Zig
import Verif.Build.ZigProps
import Verif.Keys.First
import Verif.Keys.FirstProps
import Verif.Relay.State
import Verif.Relay.StateProps
import Verif.Journey.Mail
import Verif.Journey.MailProps
import Verif.Config.Limits
import Verif.Config.LimitsProps
import Verif.Journey.Talk
import Verif.Journey.TalkProps
import Verif.Journey.Post
import Verif.Journey.PostProps
import Verif.Long.Model
import Verif.Long.Spec
import Verif.Long.Props
import Verif.Codes.Model
import Verif.Codes.Spec
import Verif.Codes.Props
import Verif.Outbuf.Zap
import Verif.Outbuf.SetSpec
import Verif.Outbuf.SetProps
import Verif.Outbuf.Wallet
import Verif.Outbuf.WalletProps
import Verif.Null.Model
import Verif.Null.Table
import Verif.Null.Spec
import Verif.Null.Check
import Verif.Null.Props
import Verif.Shared.Model
import Verif.Shared.Spec
import Verif.Shared.Lemmas
import Verif.Shared.Ids
import Verif.Shared.Library
import Verif.Shared.Table
import Verif.Shared.Check
import Verif.Shared.Props
import Verif.Arena.Borrow
import Verif.Shared.Writes
import Verif.Shared.Needs
import Verif.Shared.Promise
import Verif.Config.Doc
import Verif.Config.DocProps
import Verif.Arena.Mined
import Verif.Zap.Guide
import Verif.Zap.GuideProps
import Verif.Nip13.Example
import Verif.Nip13.ExampleProps
import Verif.Relay.Example
import Verif.Relay.ExampleProps
import Verif.Relay.Watch
import Verif.Relay.WatchProps
import Verif.Zap.Example
import Verif.Zap.ExampleProps
