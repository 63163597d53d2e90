import Verif.Props.Address
import Verif.Props.Afresh
import Verif.Props.Arrival
import Verif.Props.Auth
import Verif.Props.Base64
import Verif.Props.Batch
import Verif.Props.Bcc
import Verif.Props.Blind
import Verif.Props.Causes
import Verif.Props.Certificate
import Verif.Props.Channels
import Verif.Props.Cleanup
import Verif.Props.Clear
import Verif.Props.ClientMemory
import Verif.Props.ClientScarce
import Verif.Props.Codes
import Verif.Props.Complete
import Verif.Props.Connect
import Verif.Props.Cooperation
import Verif.Props.Cpp
import Verif.Props.CppClients
import Verif.Props.Delivery
import Verif.Props.Dialogue
import Verif.Props.Downgrade
import Verif.Props.Duration
import Verif.Props.Envelope
import Verif.Props.ErrNo
import Verif.Props.Errors
import Verif.Props.Faults
import Verif.Props.Files
import Verif.Props.Incognito
import Verif.Props.Limits
import Verif.Props.LineEnds
import Verif.Props.Log
import Verif.Props.Login
import Verif.Props.MailScarce
import Verif.Props.Mails
import Verif.Props.Mime
import Verif.Props.Minutes
import Verif.Props.Modes
import Verif.Props.Objects
import Verif.Props.Offers
import Verif.Props.Order
import Verif.Props.Owing
import Verif.Props.Parts
import Verif.Props.Patience
import Verif.Props.Reader
import Verif.Props.Receiver
import Verif.Props.Recipients
import Verif.Props.Reply
import Verif.Props.Retry
import Verif.Props.Scarce
import Verif.Props.Secure
import Verif.Props.Segments
import Verif.Props.SelfSigned
import Verif.Props.Sender
import Verif.Props.Served
import Verif.Props.Setup
import Verif.Props.SevenBit
import Verif.Props.Sockets
import Verif.Props.StartTls
import Verif.Props.StringUtils
import Verif.Props.TlsFreed
import Verif.Props.Transcript
import Verif.Props.Values
import Verif.Props.Waiting
import Verif.Props.Welcome
import Verif.Props.WinContent
import Verif.Props.WinDialogue
import Verif.Props.WinHandles
import Verif.Props.WinLife
import Verif.Props.WinOrder
import Verif.Props.WinReceiver
import Verif.Props.WinReports
import Verif.Props.WinScript
import Verif.Props.WinSock
import Verif.Props.WinWaiting
import Verif.Props.WriteOnly
