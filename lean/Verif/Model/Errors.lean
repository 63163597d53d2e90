import Verif.Model.Bytes
/-!
# Model of `src/errorresolver.cpp` and of `getErrorMessage`, `getErrorMessage_r`

Error code constants: src/socketerrors.h, src/sslerrors.h, src/smtpclienterrors.h.
-/
namespace Verif.Model
open Verif

/-- The `case` labels and texts of the `switch` in the constructor of `ErrorResolver`, errorresolver.cpp:17-161, in order. The
constants are written as their values (socketerrors.h, sslerrors.h, smtpclienterrors.h). -/
def errorTable : List (Int × Bytes) := [
  (-1, b!"Unable to create the socket")  /- SOCKET_INIT_SESSION_CREATION_ERROR -/,
  (-2, b!"Unable to connect to the socket")  /- SOCKET_INIT_SESSION_CONNECT_ERROR -/,
  (-3, b!"The connection attempt has timed out")  /- SOCKET_INIT_SESSION_CONNECT_TIMEOUT -/,
  (-4, b!"Unable to start WSA (Winsock)")  /- SOCKET_INIT_SESSION_WINSOCKET_STARTUP_ERROR -/,
  (-5, b!"Unable to get address info (Winsock)")  /- SOCKET_INIT_SESSION_WINSOCKET_GETADDRINFO_ERROR -/,
  (-6, b!"Unable to get host by name")  /- SOCKET_INIT_SESSION_GETHOSTBYNAME_ERROR -/,
  (-7, b!"Unable to get socket file descriptor status flags")  /- SOCKET_INIT_SESSION_FCNTL_GET_ERROR -/,
  (-8, b!"Unable to set socket file descriptor status flags")  /- SOCKET_INIT_SESSION_FCNTL_SET_ERROR -/,
  (-9, b!"Unable to get socket options")  /- SOCKET_INIT_SESSION_GET_SOCKET_OPTIONS_ERROR -/,
  (-10, b!"Error in delayed connection")  /- SOCKET_INIT_SESSION_DELAYED_CONNECTION_ERROR -/,
  (-20, b!"Unable to send the EHLO command")  /- SOCKET_INIT_CLIENT_SEND_EHLO_ERROR -/,
  (-21, b!"The EHLO command has timed out")  /- SOCKET_INIT_CLIENT_SEND_EHLO_TIMEOUT -/,
  (-30, b!"Unable to send the STARTTLS command")  /- SOCKET_INIT_CLIENT_SEND_STARTTLS_ERROR -/,
  (-31, b!"The STARTTLS command has timed out")  /- SOCKET_INIT_CLIENT_SEND_STARTTLS_TIMEOUT -/,
  (-51, b!"Unable to initialize the SSL Context")  /- SSL_CLIENT_STARTTLS_INITSSLCTX_ERROR -/,
  (-52, b!"Unable to create the SSL BIO")  /- SSL_CLIENT_STARTTLS_BIONEWSSLCONNECT_ERROR -/,
  (-53, b!"Unable to open the Windows Certificate System Store")  /- SSL_CLIENT_STARTTLS_WIN_CERTOPENSYSTEMSTORE_ERROR -/,
  (-54, b!"Unable to open the specifies that the default locations from which CA certificates are loaded")  /- SSL_CLIENT_STARTTLS_CTX_SET_DEFAULT_VERIFY_PATHS_ERROR -/,
  (-55, b!"Unable to connect SSL BIO")  /- SSL_CLIENT_STARTTLS_BIO_CONNECT_ERROR -/,
  (-56, b!"Unable to handshake with SSL BIO")  /- SSL_CLIENT_STARTTLS_BIO_HANDSHAKE_ERROR -/,
  (-57, b!"Unable to get peer certificate")  /- SSL_CLIENT_STARTTLS_GET_CERTIFICATE_ERROR -/,
  (-58, b!"Unable to verify the result of chain verification")  /- SSL_CLIENT_STARTTLS_VERIFY_RESULT_ERROR -/,
  (-59, b!"Unable to EHLO the server via the secure channel")  /- SSL_CLIENT_INITSECURECLIENT_ERROR -/,
  (-60, b!"The EHLO command via the secure channel timed out")  /- SSL_CLIENT_INITSECURECLIENT_TIMEOUT -/,
  (-81, b!"Unable to authenticate with the credentials provided")  /- CLIENT_AUTHENTICATE_ERROR -/,
  (-82, b!"The authentication to the server has timed out")  /- CLIENT_AUTHENTICATE_TIMEOUT -/,
  (-83, b!"The authentication is not needed on the server")  /- CLIENT_AUTHENTICATE_NONEED -/,
  (-84, b!"The authentication method selected is not supported by the server")  /- CLIENT_AUTHENTICATION_METHOD_NOTSUPPORTED -/,
  (-85, b!"The MAIL FROM command return an error")  /- CLIENT_SENDMAIL_MAILFROM_ERROR -/,
  (-86, b!"The MAIL FROM command timed out")  /- CLIENT_SENDMAIL_MAILFROM_TIMEOUT -/,
  (-87, b!"The RCPT TO command return an error")  /- CLIENT_SENDMAIL_RCPTTO_ERROR -/,
  (-88, b!"The RCPT TO command timed out")  /- CLIENT_SENDMAIL_RCPTTO_TIMEOUT -/,
  (-89, b!"The DATA command return an error")  /- CLIENT_SENDMAIL_DATA_ERROR -/,
  (-90, b!"The DATA command timed out")  /- CLIENT_SENDMAIL_DATA_TIMEOUT -/,
  (-91, b!"The From header command return an error")  /- CLIENT_SENDMAIL_HEADERFROM_ERROR -/,
  (-92, b!"The To and CC header command return an error")  /- CLIENT_SENDMAIL_HEADERTOANDCC_ERROR -/,
  (-93, b!"The Subject header command return an error")  /- CLIENT_SENDMAIL_HEADERSUBJECT_ERROR -/,
  (-94, b!"The Content type header command return an error")  /- CLIENT_SENDMAIL_HEADERCONTENTTYPE_ERROR -/,
  (-95, b!"The Body part return an error")  /- CLIENT_SENDMAIL_BODYPART_ERROR -/,
  (-96, b!"The Body command return an error")  /- CLIENT_SENDMAIL_BODY_ERROR -/,
  (-97, b!"The End data command return an error")  /- CLIENT_SENDMAIL_END_DATA_ERROR -/,
  (-98, b!"The End data command timed out")  /- CLIENT_SENDMAIL_END_DATA_TIMEOUT -/,
  (-99, b!"The QUIT command return an error")  /- CLIENT_SENDMAIL_QUIT_ERROR -/,
  (530, b!"Authentication required")  /- SMTPSERVER_AUTHENTICATIONREQUIRED_ERROR -/,
  (534, b!"Authentication mechanism is too weak")  /- SMTPSERVER_AUTHENTICATIONTOOWEAK_ERROR -/,
  (535, b!"Authentication credentials invalid")  /- SMTPSERVER_CREDENTIALSINVALID_ERROR -/,
  (538, b!"Encryption required for requested authentication mechanism")  /- SMTPSERVER_ENCRYPTIONREQUIREDFORAUTH_ERROR -/,
  (334, b!"Token based authentication failed. See https://support.google.com/mail/thread/204884242/334-authentication-unsuccessful?hl=en")  /- SMTPSERVER_AUTHENTICATION_UNSUCCESSFUL_GMAIL_ERROR -/]

/-- The `default` case, errorresolver.cpp:162-163. -/
def defaultErrorMessage : Bytes := b!"No message correspond to this error code"

/-- `ErrorResolver(code).getErrorMessage()`, errorresolver.cpp:14-170: the text of the first matching `case`. -/
def errorMessage (code : Int) : Bytes :=
  match errorTable.find? (fun p => p.1 == code) with
  | some p => p.2
  | none => defaultErrorMessage

/-- `SMTPClientBase::getErrorMessage`, smtpclientbase.cpp:315-323: content of the new array. -/
def getErrorMessage (code : Int) : Bytes := errorMessage code ++ [0]

/-- Write `src` into `buf` from index `i` on; `none` is a write outside the buffer. -/
def writeAt (buf : Bytes) (i : Nat) (src : Bytes) : Option Bytes :=
  if i + src.length ≤ buf.length then some (buf.take i ++ src ++ buf.drop (i + src.length)) else none

/-- `SMTPClientBase::getErrorMessage_r`, smtpclientbase.cpp:325-342. `buf` is the memory the pointer points to, which the caller
promises to have at least `maxLength` bytes (`none` for a null pointer); the result is the returned value and the memory
afterwards. Outer `none`: a write outside that memory. `static_cast<int>` of a `size_t` keeps the value here because the
messages are short. `strncpy` never pads here since it is given at most the length of the message. -/
def getErrorMessageR (code : Int) (buf : Option Bytes) (maxLength : Nat) : Option (Int × Option Bytes) :=
  let msg := errorMessage code
  match buf with
  | none => some (-1, none)
  | some mem =>
    if maxLength = 0 then some (-1, some mem)
    else if maxLength - 1 < msg.length then
      match writeAt mem 0 (msg.take (maxLength - 1)) with
      | none => none
      | some mem =>
        match writeAt mem (maxLength - 1) [0] with
        | none => none
        | some mem => some (((maxLength - 1 : Nat) : Int), some mem)
    else
      match writeAt mem 0 msg with
      | none => none
      | some mem =>
        match writeAt mem msg.length [0] with
        | none => none
        | some mem => some (0, some mem)

end Verif.Model
