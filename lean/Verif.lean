import Verif.Model.Link
import Verif.Model.Mechname
import Verif.Proofs.Bytes
import Verif.Proofs.Base64
import Verif.Proofs.Io
import Verif.Proofs.Selection
import Verif.Proofs.Callback
import Verif.Proofs.Exec
import Verif.Proofs.Validate
import Verif.Proofs.Post
import Verif.Proofs.Tame
import Verif.Proofs.TameScram
import Verif.Proofs.TameGss
import Verif.Proofs.NoPanic
import Verif.Proofs.Run
import Verif.Props.Basics
import Verif.Props.Selection
import Verif.Props.Callback
import Verif.Props.Plain
import Verif.Props.Simple
import Verif.Props.XOAuth2
import Verif.Props.OAuthBearer
import Verif.Props.Session
import Verif.Props.First
import Verif.Proofs.ScramParse
import Verif.Props.ScramMsgs
import Verif.Proofs.Silent
import Verif.Proofs.ScramClientRun
import Verif.Props.ScramClient
import Verif.Proofs.ScramServerRun
import Verif.Props.ScramServer
import Verif.Spec.ScramExchange
import Verif.Proofs.ScramExchange
import Verif.Props.ScramExchange
import Verif.Props.ScramPolicy
import Verif.Props.Gssapi
import Verif.Props.GssLayer
import Verif.Props.OAuthGrammar
import Verif.Spec.ScramGrammar
import Verif.Proofs.ScramErrs
import Verif.Props.ScramGrammar
import Verif.Spec.Reads
import Verif.Spec.Writers
import Verif.Proofs.Code
import Verif.Proofs.Whole
import Verif.Proofs.Draws
import Verif.Props.Reads
import Verif.Props.Writers
import Verif.Props.Interleaving
import Verif.Props.ScramKeys
import Verif.Spec.Json
import Verif.Props.OAuthErrors
import Verif.Spec.Upright
import Verif.Spec.ClientFirst
import Verif.Proofs.Upright
import Verif.Props.ScramFirst
import Verif.Spec.Talk
import Verif.Props.EndToEnd
import Verif.Model.ExampleServers
import Verif.Props.ExampleServers
import Verif.Spec.Contacts
import Verif.Proofs.Contacts
import Verif.Props.Contacts
import Verif.Spec.Preference
import Verif.Props.Preference
import Verif.Spec.StepErrors
import Verif.Proofs.StepErrors
import Verif.Props.StepErrors
import Verif.Spec.Message
import Verif.Proofs.Message
import Verif.Props.Message
import Verif.Spec.Nothing
import Verif.Proofs.Leads
import Verif.Props.Nothing
import Verif.Model.Typed
import Verif.Props.Typed
import Verif.Model.ChannelBindings
import Verif.Props.ChannelBindings
import Verif.Props.Turns
import Verif.Model.Encoder
import Verif.Proofs.Encoder
import Verif.Props.Step64
import Verif.Model.Interop
import Verif.Spec.Interop
import Verif.Props.Interop
import Verif.Props.Unescape
import Verif.Spec.ScramAnswers
import Verif.Props.ScramAnswers
import Verif.Spec.ScramWrong
import Verif.Props.ScramWrong
import Verif.Spec.ScramReplay
import Verif.Props.ScramReplay
import Verif.Spec.ScramUsers
import Verif.Props.ScramUsers
import Verif.Props.ScramServerKeys
import Verif.Spec.Ended
import Verif.Props.Ended
import Verif.Spec.ErrorKinds
import Verif.Props.ErrorKinds
import Verif.Model.Builder
import Verif.Spec.Features
import Verif.Props.Features
import Verif.Spec.Order
import Verif.Proofs.Order
import Verif.Props.Order
import Verif.Model.ExampleClients
import Verif.Spec.ExampleClients
import Verif.Props.ExampleClients
import Verif.Spec.Refusals
import Verif.Props.Refusals
import Verif.Check.UnitTests
import Verif.Check.Digests
import Verif.Check.Exchanges
import Verif.Model.Text
import Verif.Spec.Text
import Verif.Props.Text
import Verif.Spec.LastWord
import Verif.Proofs.LastWord
import Verif.Props.LastWord
import Verif.Spec.Random
import Verif.Proofs.Random
import Verif.Props.Random
import Verif.Props.Panics
import Verif.Model.Documented
import Verif.Spec.Documented
import Verif.Props.Documented
import Verif.Spec.Requests
import Verif.Props.Requests
import Verif.Proofs.Grows
import Verif.Props.GssFinal
import Verif.Props.ErrorsOccur
import Verif.Proofs.Depends
import Verif.Props.Depends
import Verif.Model.Display
import Verif.Spec.Display
import Verif.Props.Display
import Verif.Model.InteropTests
import Verif.Spec.InteropTests
import Verif.Props.InteropTests
import Verif.Model.TestUtils
import Verif.Props.TestUtils
import Verif.Model.Selectors
import Verif.Spec.Selectors
import Verif.Props.Selectors
import Verif.Model.Shown
import Verif.Spec.Shown
import Verif.Props.Shown
import Verif.Spec.Settled
import Verif.Spec.GssSteps
import Verif.Props.GssSteps
import Verif.Model.Json
import Verif.Spec.JsonText
import Verif.Proofs.Json
import Verif.Props.JsonText
import Verif.Spec.Phrases
import Verif.Props.Phrases
import Verif.Spec.ScramSteps
import Verif.Props.ScramSteps
import Verif.Spec.ServerSteps
import Verif.Props.ServerSteps
import Verif.Spec.ScramMeets
import Verif.Props.ScramMeets
import Verif.Spec.SimpleMeets
import Verif.Props.SimpleMeets
import Verif.Spec.OAuthRefused
import Verif.Props.OAuthRefused
import Verif.Spec.GssMeets
import Verif.Props.GssMeets
import Verif.Spec.Blame
import Verif.Proofs.Blame
import Verif.Props.Blame
import Verif.Spec.ScramEnds
import Verif.Props.ScramEnds
import Verif.Spec.Words
import Verif.Props.Words
import Verif.Spec.Sizes
import Verif.Proofs.Pays
import Verif.Props.Sizes
import Verif.Model.GsaslClient
import Verif.Spec.GsaslClient
import Verif.Proofs.GsaslClient
import Verif.Props.GsaslClient
import Verif.Spec.ClientSizes
import Verif.Props.ClientSizes
import Verif.Spec.Letters
import Verif.Proofs.Letters
import Verif.Props.Letters
import Verif.Spec.Spelling
import Verif.Props.Spelling
import Verif.Spec.Cached
import Verif.Props.Cached
import Verif.Spec.Identity
import Verif.Props.Identity
import Verif.Spec.Ranking
import Verif.Props.Offers
import Verif.Spec.Pairs
import Verif.Props.Negotiation
import Verif.Props.Registered
import Verif.Props.Downgrade
import Verif.Props.Veto
