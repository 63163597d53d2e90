{"id": "C01", "title": "Base64 output is decodable by any standard decoder", "statement": "For every byte string, a standard MIME base64 decoder (RFC 2045: line breaks are skipped, the text must be made of whole groups of four with correct padding) applied to Base64::Encode(bytes) returns exactly the original bytes. In particular two different inputs never encode to the same text.", "quantifier": "every byte string of every length", "why_tests_cant": "The input space is infinite and the encoder has a length-dependent line break; tests sample a few short strings.", "anchors": ["src/base64.cpp: Base64::Encode"]}
{"id": "C02", "title": "Base64::Decode inverts Base64::Encode", "statement": "For every byte string, Base64::Decode(Base64::Encode(bytes)) returns the original bytes.", "quantifier": "every byte string of every length", "why_tests_cant": "Only short inputs are tested; the claim fails exactly when the input is longer than 49152 bytes (Decode stops at the line break that Encode inserts), which no unit test reaches.", "anchors": ["src/base64.cpp: Base64::Encode, Base64::Decode"]}
{"id": "C03", "title": "Shape of the base64 output", "statement": "For every input of n bytes the output uses only the 64-character alphabet, '=' and CRLF, contains no NUL byte, has exactly 4*ceil(n/3) + 2*floor(n/49152) characters, and no line of it is longer than 65536 characters.", "quantifier": "every byte string of every length", "why_tests_cant": "The length and line-length claims range over unbounded inputs with a boundary every 49152 bytes.", "anchors": ["src/base64.cpp: Base64::Encode"]}
{"id": "C04", "title": "trim removes exactly the surrounding white space", "statement": "For every string whose scanned bytes are in the domain of isspace, trim returns the string without its leading and trailing white space and nothing else: the result neither starts nor ends with white space, the input is white space + result + white space, and trimming again changes nothing. The result is empty iff the input is all white space.", "quantifier": "every byte string", "why_tests_cant": "Universally quantified over all strings; also needs the domain of isspace (bytes 0x80..0xFE are outside it) to be tracked, which tests on one platform hide.", "anchors": ["src/stringutils.cpp: StringUtils::trimLeft, trimRight, trim"]}
{"id": "C05", "title": "Case conversion", "statement": "For every string toUpper/toLower keep the length, change only ASCII letters, are idempotent, and two strings are equal ignoring ASCII case iff their upper-case (lower-case) forms are equal.", "quantifier": "every byte string", "why_tests_cant": "Ranges over all strings and all 256 byte values.", "anchors": ["src/stringutils.cpp: StringUtils::toLower, toUpper"]}
{"id": "C06", "title": "Reading the reply code of a server reply", "statement": "For every reply text that starts with three ASCII digits, the code read is that three-digit number. For every text at all the code read lies between -99 and 999; it is -1 when the text has fewer than three characters or no number in them.", "quantifier": "every NUL-terminated reply text a server can send", "why_tests_cant": "The server chooses the text; tests only feed a few well-formed replies.", "anchors": ["src/smtpclientbase.cpp: SMTPClientBase::extractReturnCode"]}
{"id": "C07", "title": "A complete EHLO reply is recognised exactly by its last line", "statement": "For every text, the reply is treated as complete iff its last CRLF-separated line (ignoring one final CRLF) starts with \"250 \".", "quantifier": "every text", "why_tests_cant": "Ranges over all texts and all placements of CRLF.", "anchors": ["src/serveroptionsanalyzer.cpp: ServerOptionsAnalyzer::containsAllOptions"]}
{"id": "C08", "title": "Advertised authentication mechanisms are read from the first AUTH line", "statement": "For every EHLO reply text with at least one CRLF, the set of mechanisms reported by extractAuthenticationOptions is exactly the set of known mechanism names that occur as space-separated words of the first CRLF-separated line starting with 250-AUTH or 250 AUTH; if there is no such line nothing is reported.", "quantifier": "every reply text", "why_tests_cant": "The parser is a loop that re-scans the remaining text; its result on arbitrary multi-line texts is not something a finite table of examples settles.", "anchors": ["src/smtpclientbase.cpp: SMTPClientBase::extractAuthenticationOptions, ParseAuthenticationOptions"]}
{"id": "C09", "title": "The EHLO reply is understood whatever way the network cuts it into pieces", "statement": "Whatever the way the lines of a complete EHLO reply are spread over successive reads, the client recognises the end of the reply and sees the same authentication mechanisms.", "quantifier": "every EHLO reply and every way of cutting it into reads at line boundaries, for the cleartext and the TLS channel", "why_tests_cant": "Segmentation is chosen by the network; the claim is false for the cleartext channel (a last line that arrives alone is never recognised) and for a final AUTH line over TLS, which tests with canned single-read replies cannot show.", "anchors": ["src/smtpclientbase.cpp: SMTPClientBase::sendServerIdentification, getRawCommandReply", "src/securesmtpclientbase.cpp: SecureSMTPClientBase::getServerSecureIdentification, getServerReply", "src/serveroptionsanalyzer.cpp: ServerOptionsAnalyzer::containsAllOptions"]}
{"id": "C10", "title": "Opportunistic client starts TLS when the server offers it", "statement": "If a complete EHLO reply of the server has a line 250-STARTTLS or 250 STARTTLS, the opportunistic client sends STARTTLS.", "quantifier": "every server reply and every segmentation", "why_tests_cant": "The server and network choose the reply and its segmentation; the detection only looks at the last segment and only at the hyphenated form.", "anchors": ["src/opportunisticsecuresmtpclient.cpp: isStartTLSSupported, establishConnectionWithServer"]}
{"id": "C11", "title": "E-mail validation accepts exactly the documented pattern, ignoring case", "statement": "For every string, constructing a MessageAddress is accepted by the validity check iff the lower-cased string can be cut as local-part, '@', domain as the regular expression describes (any character except line breaks where the pattern has an unescaped dot). Acceptance does not depend on letter case.", "quantifier": "every byte string", "why_tests_cant": "A regular language with nested stars: infinitely many strings and decompositions.", "anchors": ["src/messageaddress.cpp: MessageAddress::MessageAddress, isEmailAddressValid"]}
{"id": "C12", "title": "An accepted e-mail address cannot break out of its SMTP command line", "statement": "Every accepted address contains no CR and no LF, contains '@', and has at least 6 characters; therefore MAIL FROM and RCPT TO with any accepted addresses (and a display name without CR/LF) each produce exactly one SMTP command line.", "quantifier": "every accepted address", "why_tests_cant": "Security claim over the whole accepted language, not over samples.", "anchors": ["src/messageaddress.cpp: isEmailAddressValid", "src/smtpclientbase.cpp: setMailRecipients, addMailRecipients"]}
{"id": "C13", "title": "The address in angle brackets is unambiguous", "statement": "For every accepted address the server, reading the RCPT TO line up to the first '>', obtains exactly the address the user gave.", "quantifier": "every accepted address", "why_tests_cant": "False for accepted addresses such as a>b@c.com because the pattern's dot is unescaped; holds for all addresses without '>'.", "anchors": ["src/messageaddress.cpp: isEmailAddressValid", "src/smtpclientbase.cpp: addMailRecipients"]}
{"id": "C14", "title": "Attachment MIME type depends only on the extension, ignoring case", "statement": "For every two file names whose text after the last dot (or the whole name when there is no dot) agrees ignoring ASCII case, getMimeType gives the same result; every extension outside the documented table gives the empty string.", "quantifier": "every file name", "why_tests_cant": "Ranges over all file names.", "anchors": ["src/attachment.cpp: Attachment::getMimeType"]}
{"id": "C15", "title": "Address lists in To and Cc headers", "statement": "For every list of addresses, the header value lists each address once, in order, separated by comma and space; an address without display name is written bare, one with a display name as: name <address>.", "quantifier": "every list of addresses of every length", "why_tests_cant": "Ranges over lists of every length and all display names.", "anchors": ["src/smtpclientbase.cpp: generateHeaderAddressValues", "src/messageaddress.cpp: operator std::string"]}
{"id": "C16", "title": "Blank names are rejected and nothing else is", "statement": "For every server name, user name and file name whose scanned bytes are in the domain of isspace: constructor and setters throw iff the C string is null, empty or all white space (null file names are excluded by precondition), passwords iff null or empty; otherwise the getter returns exactly the given text up to its first NUL.", "quantifier": "every input string", "why_tests_cant": "All strings, including embedded NUL and non-ASCII bytes.", "anchors": ["src/smtpclientbase.cpp: SMTPClientBase, setServerName", "src/credential.cpp: Credential, setUsername, setPassword", "src/attachment.cpp: Attachment", "src/stringutils.cpp: trim"]}
{"id": "C17", "title": "A rejected setter leaves the object unchanged", "statement": "For every sequence of setter calls on a credential or client, each call that throws leaves all getters' results as they were; the getters always show the last accepted value.", "quantifier": "every sequence of setter calls with arbitrary arguments", "why_tests_cant": "History property over unbounded sequences.", "anchors": ["src/credential.cpp: setUsername, setPassword, setRecommendedAuthOption", "src/smtpclientbase.cpp: setServerName, setServerPort, setBatchMode, setCommandTimeout"]}
{"id": "C18", "title": "Value objects are memory safe and independent under every history of copies and moves", "statement": "For MessageAddress, Attachment and Credential: under every sequence of construct, copy-construct, copy-assign, move-construct, move-assign, setter and destroy operations that reads only objects not moved from, no block is freed twice, no freed block is read, copies show the source's values, and changing one object never changes what another shows.", "quantifier": "every finite sequence of operations on any number of objects", "why_tests_cant": "Histories are unbounded and aliasing bugs only show in particular orders.", "anchors": ["src/messageaddress.cpp", "src/attachment.cpp", "src/credential.cpp"]}
{"id": "C19", "title": "Copy assignment makes a message equal to its source", "statement": "After a = b for two messages, a shows the same sender, recipients, subject, body and attachments as b.", "quantifier": "every pair of messages", "why_tests_cant": "Tests compare some fields for some messages; the sender is in fact not copied.", "anchors": ["src/message.cpp: Message::operator=(const Message&)"]}
{"id": "C20", "title": "Messages are memory safe under every history of copies and moves", "statement": "Under every sequence of construct, copy, move, assign and destroy operations on messages no memory block is freed twice.", "quantifier": "every finite sequence of operations on any number of messages", "why_tests_cant": "Unbounded histories; false because copy assignment from a message with an empty list keeps a dangling array pointer that the destructor frees again.", "anchors": ["src/message.cpp: Message constructors, operator=, ~Message"]}
{"id": "C21", "title": "Conversion from the C++ message API keeps the content", "statement": "For every cpp::PlaintextMessage / cpp::HTMLMessage, the converted message has the same sender, recipients (To, Cc, Bcc in order), attachments in order, MIME type, and the same subject and body up to the first NUL byte.", "quantifier": "every message", "why_tests_cant": "Ranges over all lists and strings, including empty lists and embedded NUL bytes.", "anchors": ["src/cpp/message.cpp", "src/cpp/plaintextmessage.cpp", "src/cpp/htmlmessage.cpp", "src/message.cpp"]}
{"id": "C22", "title": "The recommended authentication method set through the C++ API is honoured", "statement": "After setCredentials(c) on any cpp client the method used for authentication is restricted to c's recommended method.", "quantifier": "every credential, every client class, every server offer", "why_tests_cant": "Needs the composition of wrapper and base class for every server; false for cpp::SmtpClient, which drops the method.", "anchors": ["src/cpp/smtpclient.cpp: setCredentials", "src/cpp/forcedsecuresmtpclient.cpp", "src/cpp/opportunisticsecuresmtpclient.cpp", "src/smtpclientbase.cpp: authenticateClient"]}
{"id": "C23", "title": "C++ API clients can be copied and moved safely", "statement": "Under every sequence of construct, copy, move, setCredentials and getCredentials on cpp clients no credential object is deleted twice or read after deletion.", "quantifier": "every finite sequence of operations", "why_tests_cant": "Unbounded histories; false because the wrapper shares a raw credential pointer between copies.", "anchors": ["src/cpp/smtpclient.hpp", "src/cpp/smtpclient.cpp: setCredentials"]}
{"id": "C24", "title": "Every error code of the library has its own message", "statement": "For every error code the library can itself return there is a specific non-default message, two different codes never share a message, and every other code gives the default text.", "quantifier": "every int error code", "why_tests_cant": "Ranges over the whole int range; tests look at a few codes.", "anchors": ["src/errorresolver.cpp: ErrorResolver", "src/socketerrors.h", "src/sslerrors.h", "src/smtpclienterrors.h"]}
{"id": "C25", "title": "getErrorMessage_r never writes outside the caller's buffer and tells whether it truncated", "statement": "For every code and buffer of any size n>0, only the first n bytes can change, the result is NUL terminated and is the longest prefix of the message that fits; the return value is 0 iff the whole message was copied, and for null pointer or n=0 nothing is written and -1 is returned.", "quantifier": "every code, every buffer and every length", "why_tests_cant": "All buffer lengths matter; the return value claim is false exactly for n=1.", "anchors": ["src/smtpclientbase.cpp: getErrorMessage_r"]}
{"id": "C26", "title": "The communication log never overflows its buffer", "statement": "For every sequence of log items appended after a session start, of any sizes, no byte is written outside the log buffer and the log stays a terminated string.", "quantifier": "every sequence of items of any length", "why_tests_cant": "Buffer growth depends on the whole history of sizes.", "anchors": ["src/smtpclientbase.cpp: addCommunicationLogItem, initializeSession"]}
{"id": "C27", "title": "The communication log is append-only and exact", "statement": "After a session start the log is exactly the concatenation, in order, of newline + prefix + ': ' + item for every item added, where in client items each CRLF is shown as the four characters \\r\\n; no client item ever puts a CRLF in the log, and the original item can be recovered when it contains no backslash.", "quantifier": "every sequence of items", "why_tests_cant": "Unbounded histories and arbitrary item texts.", "anchors": ["src/smtpclientbase.cpp: addCommunicationLogItem"]}
{"id": "C28", "title": "The communication log does not reveal the credentials", "statement": "For every two user name/password pairs and every server whose answers do not depend on the content it was sent, sending any mail with either pair leaves the same communication log and the same result.", "quantifier": "every pair of credentials, every server behaviour not echoing input, every client class, every message", "why_tests_cant": "Non-interference compares pairs of executions, over all servers.", "anchors": ["src/smtpclientbase.cpp: authenticateWithMethodPlain, authenticateWithMethodLogin, authenticatedWithMethodXOauth2, addCommunicationLogItem"]}
{"id": "C29", "title": "sendMail returns 0 only when the server accepted the whole message", "statement": "If sendMail returns 0 then in this call the client sent MAIL FROM, RCPT TO for every recipient, DATA, the complete headers and body and the end-of-data mark, and the server answered 250 to MAIL FROM, to every RCPT TO and to the end-of-data mark and 354 to DATA.", "quantifier": "every message, client class, client state and server/network behaviour", "why_tests_cant": "The server is adversarial and adaptive; false when a reply code reads as 0, which the client confuses with success.", "anchors": ["src/smtpclientbase.cpp: sendMail, setMailRecipients, addMailRecipients, setMailHeaders, setMailBody"]}
{"id": "C30", "title": "Message content is only transmitted after the server agreed to receive it", "statement": "In every execution, also failing ones, header and body bytes are only sent after a 354 reply to DATA, DATA is only sent after 250 replies to MAIL FROM and to all RCPT TO of this message.", "quantifier": "every message, client class, state and server behaviour", "why_tests_cant": "Safety over all executions including error paths.", "anchors": ["src/smtpclientbase.cpp: setMailRecipients, setMailHeaders, setMailBody"]}
{"id": "C31", "title": "Every recipient is announced exactly once in order", "statement": "In every successful sendMail the RCPT TO commands are exactly one per recipient, in the order To, Cc, Bcc and list order inside each.", "quantifier": "every message with any number of recipients, every server behaviour", "why_tests_cant": "Unbounded recipient lists and adaptive servers.", "anchors": ["src/smtpclientbase.cpp: setMailRecipients, addMailRecipients"]}
{"id": "C32", "title": "Blind-copy recipients are not disclosed in the message", "statement": "For every two messages that differ only in their Bcc lists, everything sent from the DATA command on is identical against a server that behaves identically; Bcc addresses only occur in RCPT TO commands.", "quantifier": "every message, pair of Bcc lists, client and server behaviour", "why_tests_cant": "Non-interference over pairs of messages.", "anchors": ["src/smtpclientbase.cpp: setMailHeaders, setMailBody"]}
{"id": "C33", "title": "The body is transmitted completely, in order, in pieces of at most 512 bytes", "statement": "In every successful sendMail (and no short writes) the concatenation of what is sent between the headers and the end mark is exactly the MIME body; every single send call carries between 1 and 512 bytes and none is empty or repeated.", "quantifier": "every body and attachment size", "why_tests_cant": "Off-by-one at every multiple of 512; all lengths.", "anchors": ["src/smtpclientbase.cpp: setMailBody"]}
{"id": "C34", "title": "SMTP receiver recovers exactly the message data (transparency)", "statement": "For every message, an RFC 5321 receiver that reads the data up to the line consisting of a single dot and removes dot-stuffing gets exactly the transmitted headers and body.", "quantifier": "every subject, body, display name, attachment", "why_tests_cant": "False for any line starting with a dot (no dot-stuffing): content is altered or the rest of the body is executed as SMTP commands; all other messages must be shown to survive.", "anchors": ["src/smtpclientbase.cpp: setMailHeaders, setMailBody"]}
{"id": "C35", "title": "User text cannot add header lines", "statement": "For every subject and display names the header section has exactly the lines From, [To], [Cc], Subject, Content-Type.", "quantifier": "every subject and display name", "why_tests_cant": "False if a subject or display name contains CRLF (header injection); must be shown for all others.", "anchors": ["src/smtpclientbase.cpp: setMailHeaders, addMailHeader"]}
{"id": "C36", "title": "The MIME structure can be parsed back", "statement": "For every message an RFC 2046 multipart parser with boundary sep applied to the data gets exactly: the body part with its content type, then one part per attachment in order, and the multipart is properly closed.", "quantifier": "every body and attachment list", "why_tests_cant": "False when the body contains a boundary line, and the closing delimiter is missing when there is no attachment.", "anchors": ["src/smtpclientbase.cpp: setMailBody, createAttachmentsText"]}
{"id": "C37", "title": "Attachments arrive bit-exact", "statement": "For every readable file the attachment part's base64 content decodes to exactly the file's bytes and can never contain a MIME boundary or an end-of-data mark.", "quantifier": "every file content", "why_tests_cant": "All sizes; false from 4 GiB on because the size is cut to 32 bits.", "anchors": ["src/attachment.cpp: getBase64EncodedFile", "src/base64.cpp: Encode", "src/smtpclientbase.cpp: createAttachmentsText"]}
{"id": "C38", "title": "Secure clients never send credentials in clear", "statement": "In every execution of the opportunistic and of the forced client, under every server behaviour and call history, AUTH commands and credential data are only sent inside TLS.", "quantifier": "every history of API calls, every server behaviour", "why_tests_cant": "Adversarial server and call history; false after one session without STARTTLS because the client keeps using the cleartext send functions for good.", "anchors": ["src/opportunisticsecuresmtpclient.cpp: establishConnectionWithServer", "src/smtpclientbase.cpp: setKeepUsingBaseSendCommands, authenticateClient"]}
{"id": "C39", "title": "Forced client sends everything inside TLS", "statement": "In every execution the forced client (base send commands not requested by the user) writes nothing in clear to the server's socket.", "quantifier": "every history of sendMail calls, every server behaviour", "why_tests_cant": "All executions including error paths; the RCPT loop goes on after a failure and then writes in clear to descriptor 0.", "anchors": ["src/forcedsecuresmtpclient.cpp", "src/securesmtpclientbase.cpp: sendCommandWithFeedback"]}
{"id": "C40", "title": "Nothing is sent over TLS before the certificate was accepted", "statement": "In every execution of a secure client, data is written to or read from the TLS channel only after a handshake in which a certificate was presented and chain verification succeeded, or failed only with self-signed-leaf while the user had enabled acceptance of self-signed certificates.", "quantifier": "every server/TLS behaviour and history", "why_tests_cant": "All executions, including retries after failures where stale TLS state survives.", "anchors": ["src/securesmtpclientbase.cpp: startTLSNegotiation"]}
{"id": "C41", "title": "Authentication uses an advertised and permitted mechanism", "statement": "For every server offer and recommended method: the client uses PLAIN, else LOGIN, else XOAUTH2, the first that is both advertised and permitted; if none is, it reports -84 and sends nothing; this never crashes.", "quantifier": "every offer and recommended method, including servers that advertise no AUTH at all", "why_tests_cant": "False when the server advertises no AUTH line: a null pointer is dereferenced.", "anchors": ["src/smtpclientbase.cpp: authenticateClient"]}
{"id": "C42", "title": "AUTH payloads carry exactly the credentials on one line", "statement": "For every user name and password a standard server decoding the AUTH PLAIN / LOGIN / XOAUTH2 exchange gets exactly the user name and password; the command is a single line.", "quantifier": "every user name and password", "why_tests_cant": "All lengths; the single-line claim fails for credentials whose encoding reaches 65536 characters.", "anchors": ["src/smtpclientbase.cpp: authenticateWithMethodPlain, authenticateWithMethodLogin, authenticatedWithMethodXOauth2", "src/base64.cpp: Encode"]}
{"id": "C43", "title": "Waiting for a reply is bounded by the command timeout", "statement": "In every execution the client sleeps at most command-timeout times while waiting for one reply and then gives up; a wait always ends.", "quantifier": "every server behaviour", "why_tests_cant": "Liveness over infinite server behaviours; false for a server that keeps sending data on the cleartext channel.", "anchors": ["src/smtpclientbase.cpp: checkServerGreetings, getRawCommandReply", "src/securesmtpclientbase.cpp: getServerReply"]}
{"id": "C44", "title": "Error handling terminates", "statement": "Whatever the network does, cleaning up after a failed command terminates.", "quantifier": "every network behaviour, batch and non-batch mode", "why_tests_cant": "Recursion depth depends on an unbounded run of send failures; false in batch mode, where cleanup and QUIT call each other for as long as sending fails.", "anchors": ["src/smtpclient.cpp: cleanup", "src/securesmtpclientbase.cpp: cleanup", "src/smtpclientbase.cpp: sendQuitCommand, sendRawCommand"]}
{"id": "C45", "title": "Sockets are closed at most once and never leak", "statement": "In every history of sendMail calls and destruction each socket the client opened is closed exactly once by the time the client is destroyed, and the client never closes a descriptor it did not open.", "quantifier": "every history and server/network behaviour", "why_tests_cant": "Resource histories; the exactly-once part is false because a failed connection attempt leaves its socket open and the next attempt overwrites it.", "anchors": ["src/smtpclientbase.cpp: initializeSessionPOSIX, sendMail", "src/smtpclient.cpp: cleanup", "src/securesmtpclientbase.cpp: cleanup"]}
{"id": "C46", "title": "Batch mode reuses one connection", "statement": "In batch mode any number of consecutive successful sendMail calls use one single connection, no QUIT is sent between them, and destroying the client sends QUIT and closes it; outside batch mode every successful sendMail opens its own connection and ends with QUIT and close.", "quantifier": "every number of mails, every server behaviour", "why_tests_cant": "Unbounded histories.", "anchors": ["src/smtpclientbase.cpp: sendMail, setMailBody", "src/smtpclient.cpp: cleanup"]}
{"id": "C47", "title": "A failed sendMail leaves the client ready for a fresh start", "statement": "After sendMail returned an error, the next sendMail outside batch mode starts with a new connection.", "quantifier": "every failure point and server behaviour", "why_tests_cant": "All failure points; false for failures reported by the server (for example 550): the old connection with its half-done transaction is reused.", "anchors": ["src/smtpclientbase.cpp: sendMail"]}
{"id": "C48", "title": "Return values of sendMail can be told apart", "statement": "Every value returned by sendMail is 0, a documented negative error code, or the code of a reply the server sent in this call.", "quantifier": "every execution", "why_tests_cant": "All executions; false for a failing fcntl, where 1 is returned because of an operator precedence slip.", "anchors": ["src/smtpclientbase.cpp: sendMail, initializeSessionPOSIX"]}
{"id": "C49", "title": "No server can make the client run into undefined behaviour", "statement": "For every well-formed message and every server and network behaviour, sendMail never reads or writes out of bounds and never dereferences a null pointer.", "quantifier": "every server/network behaviour, every client class and state reachable through the API", "why_tests_cant": "Adversarial inputs; false: a read of exactly 1024 bytes overflows the reply buffer by one, a missing AUTH line leads to a null dereference, and a few more; all other causes must be excluded.", "anchors": ["src/smtpclientbase.cpp: getRawCommandReply, authenticateClient, addCommunicationLogItem, sendServerIdentification", "src/securesmtpclientbase.cpp: startTLSNegotiation"]}
{"id": "C50", "title": "A live connection belongs to exactly one client object", "statement": "Under every sequence of copy, move, assignment and destruction of clients, no two client objects ever hold the same socket, moved-from and copied clients hold none, and no socket is closed twice.", "quantifier": "every finite sequence of operations on any number of clients", "why_tests_cant": "Unbounded histories with aliasing.", "anchors": ["src/smtpclientbase.cpp: copy/move constructors and assignments", "src/securesmtpclientbase.cpp: copy/move"]}
{"id": "C51", "title": "MAIL FROM fallback", "statement": "The client tries the three MAIL FROM forms in the documented order, goes on to the next only after a 501 reply, stops at the first 250, and returns any other reply at once.", "quantifier": "every sender and every sequence of replies", "why_tests_cant": "All reply sequences.", "anchors": ["src/smtpclientbase.cpp: setMailRecipients"]}
{"id": "C52", "title": "A session is opened only over an established TCP connection", "statement": "initializeSession reports success only if the socket was created, the name resolved, and connect succeeded immediately or the pending connection was confirmed without error; the port used is the configured port for all ports up to 65535.", "quantifier": "every behaviour of the socket layer", "why_tests_cant": "All combinations of system call results.", "anchors": ["src/smtpclientbase.cpp: initializeSession, initializeSessionPOSIX, setSocketToBlockingPOSIX, setSocketToNonBlockingPOSIX"]}
{"id": "C53", "title": "A reply that arrives within the timeout is not lost", "statement": "If the server's greeting or reply over TLS arrives in one read before command-timeout seconds of waiting have passed or exactly then, the client uses it.", "quantifier": "every arrival time and timeout", "why_tests_cant": "False at the boundary: data that arrives on the last poll is discarded, and with timeout 0 every greeting is discarded.", "anchors": ["src/smtpclientbase.cpp: checkServerGreetings", "src/securesmtpclientbase.cpp: getServerReply", "src/forcedsecuresmtpclient.cpp: checkServerGreetings"]}
{"id": "C54", "title": "The client speaks in lock-step", "statement": "In every execution the client never sends a command that expects a reply before the reply to the previous such command was read or given up on (no pipelining), so replies cannot be attributed to the wrong command.", "quantifier": "every execution", "why_tests_cant": "Safety over all interleavings of sends and reads.", "anchors": ["src/smtpclientbase.cpp: sendRawCommand, getRawCommandReply", "src/securesmtpclientbase.cpp: sendCommandWithFeedback"]}
{"id": "C55", "title": "Addresses, credentials and attachments give back all their memory", "statement": "After every history of construct, copy, assign, move, set and destroy operations at whose end all objects are destroyed, no allocated block is left.", "quantifier": "every finite sequence of operations on any number of objects", "why_tests_cant": "Unbounded histories; false because Attachment::setContentId overwrites its old pointer.", "anchors": ["src/messageaddress.cpp", "src/credential.cpp", "src/attachment.cpp: setContentId"]}
{"id": "C56", "title": "Mail is only sent after the requested authentication succeeded", "statement": "If credentials are set when sendMail opens a connection, then no MAIL FROM command and nothing of the mail is sent on it before a complete authentication exchange took place on the same channel, from which the server reads exactly the user name and password of the client and which it answered with 235.", "quantifier": "every client with credentials, message, server behaviour and execution, also failing ones", "why_tests_cant": "A safety property of all executions; false for the opportunistic client when STARTTLS is not offered and for replies that read as number 0.", "anchors": ["src/smtpclientbase.cpp: sendMail, authenticateClient", "src/smtpclient.cpp: establishConnectionWithServer", "src/opportunisticsecuresmtpclient.cpp: establishConnectionWithServer", "src/forcedsecuresmtpclient.cpp: establishConnectionWithServer"]}
{"id": "C57", "title": "No way back to clear text after STARTTLS", "statement": "If sendMail of an opportunistic client sends STARTTLS on a socket, then nothing else is sent in clear on that socket during this call, whether the server refuses STARTTLS, the negotiation fails, or the TLS connection breaks later.", "quantifier": "every client state not switched to the base send commands, message, server and network behaviour", "why_tests_cant": "A downgrade could hide in any combination of replies and failures; false for a STARTTLS answered by a text that reads as number 0.", "anchors": ["src/opportunisticsecuresmtpclient.cpp: establishConnectionWithServer", "src/securesmtpclientbase.cpp: startTLSNegotiation, sendCommand", "src/smtpclientbase.cpp: sendMail"]}
{"id": "C58", "title": "An interrupted mail is never finished", "statement": "In every run of sendMail, whether it succeeds, fails or is cut off, the end-of-data mark (CRLF . CRLF) is sent only after the complete mail was handed over on the same channel: the sender and every recipient were accepted, DATA was answered 354, and the complete header section and complete body with all attachments, as read from the files in this run, were written. The mark is sent at most once. So a server never takes a truncated mail for a complete one.", "quantifier": "for all messages, clients (connected or not), servers, write and read failures and points of interruption", "why_tests_cant": "A test can cut the connection at a few chosen points; here every write can fail, every reply can be anything, and the claim is about what was sent before the mark in all of those runs.", "anchors": ["src/smtpclientbase.cpp:344-372 sendMail", "src/smtpclientbase.cpp:838-1010 recipients, headers, body", "src/smtpclientbase.cpp:668-742 sending"]}
{"id": "C59", "title": "Client objects behave as values", "statement": "Every program that makes, copies, assigns, moves, changes, uses for sending, and destroys client objects reads no dead memory, frees nothing twice and nothing with the wrong delete, and afterwards every client shows the server name, communication log, last server response, authentication options and credential that the same program on plain values gives: copies are independent of their originals, and a moved-from client is empty.", "quantifier": "for all programs (sequences of constructor, copy, move, assignment, setter, sendMail and destructor calls on any number of clients) and everything servers, network and operating system do in the sessions", "why_tests_cant": "Use after free and double free depend on the order of operations on several objects; tests cover a few orders and may pass even when dead memory is read.", "anchors": ["src/smtpclientbase.cpp:42-281 constructor, destructor, copy, move, getters and setters", "src/smtpclientbase.cpp:310-313, 375-386, 752-758, 1012-1043 memory changed by a session", "src/smtpclientbase.h:207-216"]}
{"id": "C60", "title": "Client objects give all their memory back", "statement": "When all client objects of a program are destroyed, no memory that they allocated for server names, logs, responses, authentication options or credentials is left.", "quantifier": "for all programs on clients and everything that happens in their sessions", "why_tests_cant": "A leak is invisible to functional tests and depends on the sequence of assignments, moves and sessions.", "anchors": ["src/smtpclientbase.cpp:66-228 destructor, copy and move", "src/smtpclientbase.cpp:254-281 setters", "src/smtpclientbase.cpp:375-386, 752-758, 1012-1043", "src/smtpclientbase.cpp:1120-1141 extractAuthenticationOptions"]}
{"id": "C61", "title": "The dialogue of a call follows one script", "statement": "In every run of sendMail, whatever the outcome, everything that is sent or tried is an initial part of one script: the opening of the session (EHLO; STARTTLS and a second EHLO for the opportunistic client; the authentication if credentials are set), the sender in one to three forms, every recipient, DATA, the header, the body with the files as read in this run, the end mark. Nothing is repeated, reordered or skipped, and nothing else is sent except QUIT. When sendMail returns 0 the whole script was said.", "quantifier": "every client state, message, credential, server and network behaviour, and every outcome including failures, hangs and undefined behaviour", "why_tests_cant": "A statement about the order of everything said in all executions, including those in which writes fail at any point. Skipping is possible only when a reply reads as number 0.", "anchors": ["src/smtpclientbase.cpp: sendMail, setMailRecipients, setMailHeaders, setMailBody, authenticateClient", "src/smtpclient.cpp, src/opportunisticsecuresmtpclient.cpp, src/forcedsecuresmtpclient.cpp: establishConnectionWithServer"]}
{"id": "C62", "title": "A reply is read on the channel of its command", "statement": "Whatever the client reads after a command was sent and before anything else is sent is read on the channel on which the command went out: under TLS on the same TLS connection, in clear on the same socket. So bytes that arrive in clear are never taken as the reply to a command sent under TLS, and the reply to a command sent in clear is never looked for in a TLS connection.", "quantifier": "every sequence of calls on every kind of client in every initial state, every configuration, message, server and network behaviour, and every outcome", "why_tests_cant": "The channel of a command and the channel of the reply are chosen in different functions by different conditions (client class, a sticky flag, whether a BIO exists); tests look at replies, not at the descriptor they come from, and cover few combinations of state and failure.", "anchors": ["src/securesmtpclientbase.cpp:288-332 sendCommand, sendCommandWithFeedback, getServerReply", "src/smtpclientbase.cpp:620-714 identification, greeting, raw commands and replies", "src/smtpclient.cpp:100-110"]}
{"id": "C64", "title": "Exactly the attached files are read, and only for a mail the server takes", "statement": "In every run of sendMail, whatever the outcome, either no file is opened, or the files attached to the message are opened, in their order, once for each attachment, and no other file. When sendMail returns 0 they were all opened. No file is opened before the server accepted the sender, every recipient and DATA (a reply that reads as number 0 counts as acceptance, see C30).", "quantifier": "every client state and class, message (for the last sentence: without NUL characters), credential, server, network and file system behaviour, and every outcome including failures, hangs and undefined behaviour", "why_tests_cant": "The statement is about files that are not opened, in all executions; tests check the content of mails, not the absence of other file accesses, and not the moment of an access relative to the dialogue under all failures.", "anchors": ["src/smtpclientbase.cpp:959-975 setMailBody", "src/smtpclientbase.cpp:1045-1066 createAttachmentsText", "src/attachment.cpp:132-153 getBase64EncodedFile"]}
{"id": "C63", "title": "An AUTH command names a mechanism the server offered on the same channel just before", "statement": "Every AUTH command sent during sendMail starts an exchange with a mechanism whose name the server listed after the keyword AUTH in its reply to the EHLO before. That EHLO was sent on the same channel (the same TLS connection, or the same socket in clear), and between it and the AUTH command nothing else was sent, no connection was opened and no TLS was negotiated. So an offer made in clear before STARTTLS is never used inside TLS, and an offer of an earlier session is never used.", "quantifier": "All messages, client states (not switched to the base send commands, or plain client), servers, networks and outcomes including crashes; for the plain and the forced client also all sequences of API calls over the whole life of the object.", "why_tests_cant": "The offer is stored in a member that survives sessions, copies and the STARTTLS upgrade. A stale or injected offer shows up only for particular orders of replies and failures, while tests run one well-behaved dialogue.", "anchors": ["src/smtpclientbase.cpp:620-645", "src/smtpclientbase.cpp:760-836", "src/smtpclientbase.cpp:1081-1141", "src/securesmtpclientbase.cpp:260-286", "src/opportunisticsecuresmtpclient.cpp:51-92", "src/forcedsecuresmtpclient.cpp:51-79"]}
{"id": "C65", "title": "Everything is sent to the configured server", "statement": "Whatever a client sends in its whole life goes out on a connection that it opened, and did not close since, to the server name and port configured at the time of the opening (last accepted setServerName, last setServerPort, or the constructor arguments; refused names change nothing). When the connection is new, these are the server and port configured when sendMail was called.", "quantifier": "All sequences of API calls on every class of client, all servers, networks, messages and outcomes.", "why_tests_cant": "The socket, the BIO and the configuration are separate members changed at different times (failed sessions leave stale descriptors and BIOs behind, batch mode keeps connections over calls); tests use one server and never look at which descriptor leads where.", "anchors": ["src/smtpclientbase.cpp:254-268 setServerName, setServerPort", "src/smtpclientbase.cpp:496-569 initializeSessionPOSIX", "src/smtpclientbase.cpp:344-372 sendMail", "src/smtpclientbase.cpp:668-684 sendRawCommand", "src/securesmtpclientbase.cpp:156-315"]}
{"id": "C66", "title": "Winsock is started before it is used and stopped as often as it was started (Windows)", "statement": "On Windows: a session opens successfully only after Winsock was started, the configured name and port resolved and a socket connected, in this order. In every program over any number of client objects Winsock is never stopped more often than it was started; it runs while an object is connected; and when all objects are destroyed (and no WSACleanup failed) it was stopped as often as it was started. Nothing is undefined.", "quantifier": "All sequences of creation, copy, move, assignment, sendMail with any end, destruction, over any number of objects; all results of the operating system.", "why_tests_cant": "The count is process-wide and kept by the system; a missing stop or one too many shows only in later, unrelated use of sockets, and the test suite does not run sessions on Windows.", "anchors": ["src/smtpclientbase.cpp:375-436 initializeSessionWinSock", "src/smtpclientbase.cpp:460-493 isWSAStarted, doWSACleanup", "src/smtpclient.cpp:47-72 cleanup", "src/securesmtpclientbase.cpp:104-138 cleanup", "src/smtpclientbase.cpp:80-228 copy and move", "src/smtpclientbase.h:218-220 mWSAStarted"]}
{"id": "C67", "title": "The TLS negotiation on Windows checks the certificate and closes what it opened", "statement": "On Windows the negotiation returns 0 only when the context and the channel were made, the root certificates of the system were loaded, connection and handshake succeeded, the server presented a certificate, and its verification gave 0, or 18 (self signed) where the client accepts that. Whatever it returns, the system certificate store it opened is closed; and a failure after the opening leaves the connection closed and Winsock stopped.", "quantifier": "All client states, all results of OpenSSL and of the certificate store, any number of root certificates.", "why_tests_cant": "Each exit needs another failure inside OpenSSL or Windows; leaked handles do not show in results; the Windows branch is not run by the tests.", "anchors": ["src/securesmtpclientbase.cpp:156-258 startTLSNegotiation", "src/securesmtpclientbase.cpp:177-198 root certificates", "src/securesmtpclientbase.cpp:253-256"]}
{"id": "C68", "title": "A mail does not depend on the mails before", "statement": "What a client that is not connected does from now on depends on its settings (server, port, batch mode, timeout, credential, acceptance of self-signed certificates, base send commands) and on nothing that earlier sessions left in it: the last response, the authentication options, the communication log, the socket number, the error number, the TLS objects. After any calls, a client that is not connected returns the same results, performs the same actions and writes the same log as a newly constructed client with the same settings would.", "quantifier": "All three client kinds, all sequences of calls before and after, all messages, all behaviours of the server, the operating system and OpenSSL.", "why_tests_cant": "It compares two executions after arbitrary pasts; tests use each object once, and a leftover shows only for particular combinations of an earlier failure and a later reply.", "anchors": ["src/smtpclientbase.cpp:344-372 sendMail", "src/smtpclientbase.cpp:375-386 initializeSession", "src/smtpclientbase.cpp:752-758 setLastServerResponse", "src/opportunisticsecuresmtpclient.cpp:51-92 establishConnectionWithServer", "src/securesmtpclientbase.cpp:297-332"]}
{"id": "C69", "title": "The communication log is a transcript of the session", "statement": "At every moment of the life of a client the communication log shows every command that was sent or tried since the current socket was made, in the order in which they were said, each as an entry of the client; AUTH commands are shown without the credential and the two lines after AUTH LOGIN are left out. While there is no log, no command was sent. Conversely, what the log attributes to the client was said by the client.", "quantifier": "All three client kinds, all sequences of calls with or without the destructor, all messages and credentials, all behaviours of the server, the operating system and OpenSSL, all outcomes including those that never return.", "why_tests_cant": "A missing entry shows only on particular paths (a QUIT of a failing cleanup, a command after a rejected one); tests compare a few complete logs of a friendly server.", "anchors": ["src/smtpclientbase.cpp:1012-1043 addCommunicationLogItem", "src/smtpclientbase.cpp:734-742 sendQuitCommand", "src/smtpclientbase.cpp:783-836 authenticate\u2026", "src/smtpclientbase.cpp:838-1010", "src/opportunisticsecuresmtpclient.cpp:94-100 upgradeToSecureConnection"]}
{"id": "C70", "title": "The time a call waits is bounded by the message and the timeout", "statement": "In every run of sendMail, however it ends, the client sends at most 11 commands and one per recipient, calls select at most once, and sleeps in total at most the command timeout (one second if it is 0) times the sum of 12, the number of recipients and the number of parts in which replies to EHLO were read. In a session that is already open it is at most 5 commands and one per recipient, no select, and the timeout times 6 plus the number of recipients. (Time spent inside blocking system calls and OpenSSL is not counted.)", "quantifier": "Every message, client state and kind, timeout, credential, server, network and file system behaviour, and every outcome including failures and hangs.", "why_tests_cant": "A bound over all servers; the slowest server is one that answers each command in the last moment, in every combination with refusals, fallbacks and partial replies.", "anchors": ["src/smtpclientbase.cpp:344-372 sendMail", "src/smtpclientbase.cpp:686-714 getRawCommandReply", "src/smtpclientbase.cpp:620-645 sendServerIdentification", "src/securesmtpclientbase.cpp:260-332", "src/smtpclientbase.cpp:496-569 initializeSessionPOSIX"]}
{"id": "C71", "title": "The communication log is a record of the whole conversation", "statement": "At every moment of the life of a client the communication log contains all commands and all replies since the current socket was made, in the order in which they were said, each attributed to who said it; while there is no log, nothing was said. Commands are shown without credentials; a reply read in parts is shown as one text, each part up to its first NUL, and a reply read in one piece without its last byte. Everything the server said is there.", "quantifier": "All three client kinds, all sequences of calls with or without the destructor and with any changes of the timeout, all messages and credentials, all behaviours of the server, the operating system and OpenSSL, all outcomes including those that never return.", "why_tests_cant": "The order of entries of both sides over all servers, delays and partial reads; a reply lost from the log shows only for a particular delay or split.", "anchors": ["src/smtpclientbase.cpp:1012-1043 addCommunicationLogItem", "src/smtpclientbase.cpp:647-666 checkServerGreetings", "src/smtpclientbase.cpp:686-714 getRawCommandReply", "src/securesmtpclientbase.cpp:317-332 getServerReply", "src/smtpclientbase.cpp:620-645 sendServerIdentification", "src/smtpclientbase.cpp:783-836 authenticate\u2026"]}
{"id": "C72", "title": "When the server accepts everything, every mail is sent", "statement": "When the operating system and the TLS library do what they are asked for, and the server greets the client and accepts every command in time with a positive reply, every sendMail returns 0: with and without login, in a session of its own or in batch mode, over TLS or not, for every message whose lists are what their counts say. No other call fails except for a missing or blank server name, and the calls and the destructor end.", "quantifier": "All three client kinds, all sequences of API calls, all messages, credentials and settings, all texts, lengths and delays of accepting replies.", "why_tests_cant": "Tests run against one server; this speaks about every server that accepts, every reply text and delay below the timeout, every sequence of calls and every message.", "anchors": ["src/smtpclientbase.cpp:344-372 sendMail", "src/smtpclientbase.cpp:496-569 initializeSessionPOSIX", "src/smtpclientbase.cpp:668-714 sendRawCommand, getRawCommandReply", "src/securesmtpclientbase.cpp:156-332 startTLSNegotiation \u2026 getServerReply", "src/smtpclient.cpp:47-98", "src/opportunisticsecuresmtpclient.cpp:51-114", "src/forcedsecuresmtpclient.cpp:51-99"]}
{"id": "C73", "title": "Running out of memory leaves usable objects", "statement": "When an allocation fails inside a constructor, a copy, an assignment or a setter of MessageAddress, Credential, Attachment or ErrorResolver, the std::bad_alloc leaves every object in a state in which it can be used or at least destroyed: no memory is read or freed that is not the program's own, every object that was not the target of the failed call keeps its value, and no memory is lost. Moves and destructors never fail.", "quantifier": "All programs of constructions, copies, assignments, moves, setters and destructions on any number of objects, all texts, every choice of which allocations fail, any number of failures.", "why_tests_cant": "Tests never make new fail, and the outcome depends on which of several allocations fails and on what the program does afterwards.", "anchors": ["src/messageaddress.cpp:10-93", "src/credential.cpp:9-152", "src/attachment.cpp:11-118", "src/errorresolver.cpp:166-222"]}
{"id": "C74", "title": "Messages give back all their memory", "statement": "After every history of construct, copy, assign, move, move-assign and destroy operations on messages at whose end all messages are destroyed, no allocated block is left: no subject, body, list, recipient or attachment is lost.", "quantifier": "every finite sequence of operations on any number of messages", "why_tests_cant": "A test runs a few histories, and without a leak checker a lost block is invisible; which blocks are lost depends on how the lists of both messages came about.", "anchors": ["src/message.cpp:60-88", "src/message.cpp:91-128", "src/message.cpp:185-257"]}
{"id": "C75", "title": "TLS connections are freed exactly once", "statement": "A client that can encrypt frees every TLS connection it made exactly once by the time it is destroyed, whatever the server did and whatever API calls were made in between.", "quantifier": "Both secure client classes, all finite sequences of API calls, all behaviours of network, TLS library and server in which a new socket is not one that is in use, all lives that end with the destructor.", "why_tests_cant": "A lost connection is invisible to a test that looks at return codes; whether one is lost depends on which step of which attempt failed and on what was called next.", "anchors": ["src/securesmtpclientbase.cpp:104-138", "src/securesmtpclientbase.cpp:156-258", "src/forcedsecuresmtpclient.cpp:51-99", "src/opportunisticsecuresmtpclient.cpp:51-114"]}
{"id": "C76", "title": "The C++ clients do what the base clients do", "statement": "Each of the three clients of the jed_utils::cpp namespace behaves, call by call, like the client of the base library given the same calls: same results, same bytes sent, same state.", "quantifier": "All three client classes, all finite sequences of API calls with credentials made by the public constructors, all behaviours of network and server, all states of the client.", "why_tests_cant": "The wrappers are tested one getter at a time; that a whole session is the same needs all call sequences against all servers.", "anchors": ["src/cpp/smtpclient.cpp:1-84", "src/cpp/forcedsecuresmtpclient.cpp:1-93", "src/cpp/opportunisticsecuresmtpclient.cpp:1-93"]}
{"id": "C77", "title": "No mail before the server said 220 and 250", "statement": "When sendMail opens a connection, the first MAIL FROM is only sent after the server's greeting was read with the code 220 and an answer to EHLO was read every piece of which has the code 250; with STARTTLS, also after its answer 220 and a second EHLO accepted with 250 on the TLS connection. Nothing else is said or read in between.", "quantifier": "All messages without NUL bytes, all three client classes, all states of a client that is not connected, all behaviours of network, TLS library and server.", "why_tests_cant": "A test plays a handful of server scripts; that no combination of codes, splits of replies over reads, timeouts and left-over state lets a mail through needs all of them.", "anchors": ["src/smtpclientbase.cpp:620-666", "src/smtpclient.cpp:74-98", "src/securesmtpclientbase.cpp:260-286", "src/opportunisticsecuresmtpclient.cpp:51-92", "src/forcedsecuresmtpclient.cpp:51-99"]}
{"id": "C78", "title": "In clear only if the server did not offer STARTTLS", "statement": "When an opportunistic client sends anything of a mail in clear on a connection (a command other than EHLO, STARTTLS and QUIT, or content), it opened this connection to its configured server, was greeted there with 220, said EHLO there, and the server's answer to this EHLO did not offer STARTTLS.", "quantifier": "All messages, all states of an opportunistic client that is not connected, all behaviours of network, TLS library and server.", "why_tests_cant": "A test shows that one server with and one without the offer are treated right; that no combination of replies, failures and left-over state leads to a mail in clear beside an offer needs all of them.", "anchors": ["src/opportunisticsecuresmtpclient.cpp:51-114", "src/smtpclientbase.cpp:283-292", "src/smtpclientbase.cpp:620-666", "src/securesmtpclientbase.cpp:288-315"]}
{"id": "C79", "title": "Writing in blocking mode, reading in clear in non-blocking mode", "statement": "Whatever the client sends is sent while the socket is in blocking mode, in clear as through TLS (so that a slow network does not cut a command or a mail short). Replies through TLS are read in blocking mode too; replies in clear other than the greeting are read in non-blocking mode.", "quantifier": "Every life of a client: all sequences of calls, all three classes, all behaviours of server, network and operating system.", "why_tests_cant": "The mode is invisible in a test with a fast local server; whether it is restored on every path, also after timeouts, failed connection attempts and with left-over TLS objects, needs all executions.", "anchors": ["src/smtpclientbase.cpp:571-600", "src/smtpclientbase.cpp:686-714", "src/smtpclientbase.cpp:526-568"]}
{"id": "C80", "title": "No command on a connection that still owes a reply", "statement": "On one connection, in clear or through TLS, the client sends something other than QUIT only when something was received there after every command sent there before: when a reply does not come in time, when reading fails or ends, or when sending the command itself failed, nothing but QUIT is sent on that connection any more, whatever the user calls afterwards. In particular nothing but QUIT is sent on a connection whose end was read.", "quantifier": "all sequences of calls and settings of all three clients, all behaviours of the server, the network, the TLS library and the operating system", "why_tests_cant": "A test stops the server in one place of one session; the claim is about every command in every session, over all ways in which a reply can be missing, and about all later calls on the same object, including TLS connections left over from earlier attempts and descriptor numbers handed out again.", "anchors": ["src/smtpclientbase.cpp:686-732", "src/securesmtpclientbase.cpp:288-332", "src/smtpclient.cpp:47-72", "src/securesmtpclientbase.cpp:104-138", "src/smtpclientbase.cpp:838-895"]}
{"id": "C81", "title": "Sockets on Windows have one owner, are used only while open, and are closed", "statement": "On Windows, in every program over any number of clients with copies, moves and assignments: a socket is connected, shut down or closed only while it is open; no socket is closed twice; no two objects hold the same socket; what an object holds is open; and when all objects are destroyed every socket has been closed.", "quantifier": "all programs over any number of objects (create, copy, move, assign, send, destroy in any order), all results of the Winsock calls, all ways the dialogue ends", "why_tests_cant": "A leaked or doubly closed handle shows no symptom in a single test, and whether a path leaves a handle behind depends on the combination of failures, copies and moves in the whole program.", "anchors": ["src/smtpclientbase.cpp:389-436", "src/smtpclient.cpp:47-72", "src/securesmtpclientbase.cpp:104-138", "src/smtpclientbase.cpp:80-228"]}
{"id": "C82", "title": "A negative result of sendMail names the step that failed", "statement": "When sendMail returns a negative code, the history of that call contains the failed step the code stands for, and after it only the end of the session (QUIT, freeing TLS, close), or, for recipients and address headers, further ones. A timeout code means that the command was sent, that the full timeout passed, and that no data arrived before the last second was over; -3 without a connection attempt failing means that nothing was sent and the greeting did not come in time; the codes of TLS appear only in the secure clients. The codes -4, -5, -53, -83 and -92 are never returned.", "quantifier": "for every message, every client state (all three classes), every behaviour of operating system, TLS library and server, and every negative result, as long as no reply was read that does not start with a positive number", "why_tests_cant": "the claim relates each of 38 codes to all histories that can end with it, including sends that fail during the clean-up after another failure and replies split into pieces; tests provoke one failure at a time", "anchors": ["src/smtpclientbase.cpp:344-372", "src/smtpclientbase.cpp:496-569", "src/smtpclientbase.cpp:620-732", "src/smtpclientbase.cpp:760-1010", "src/securesmtpclientbase.cpp:156-332", "src/socketerrors.h", "src/smtpclienterrors.h", "src/sslerrors.h"]}
{"id": "C83", "title": "On Windows the opening reports the step that failed", "statement": "Opening a session on Windows always returns. The result is -4, -5, -1, -2 or 0 as starting Winsock, finding the address, making the socket or connecting failed, or none; the steps before it succeeded and none after it was tried. The communication log holds exactly: the attempt to connect (if there was one), the system's message for the failure (if there is one), and a failure of WSACleanup (if it failed), or the number with which WSAStartup failed. The recorded error number is that of the failure, unless WSACleanup failed as well: then it is the number of that. A refused change of the blocking mode gives -8 or -7, records the number and logs its text; a change that works changes nothing else.", "quantifier": "for every behaviour of the operating system, every client with a server name, every history and every port", "why_tests_cant": "the Windows branches are not built on the systems where the tests run, and most of the failures cannot be provoked", "anchors": ["src/smtpclientbase.cpp:389-493", "src/socketerrors.h:4-13"]}
{"id": "C84", "title": "The dialogue is the same on Windows", "statement": "Whatever an application calls and whatever the system, the network and the server do, the client on Windows says and hears on each connection what the client on POSIX would, in the same order, and gives the same results, except for the codes of steps that only one of the platforms has. So what holds of every dialogue on POSIX holds on Windows: a result of 0 means that the mail was delivered, the forced client sends no credentials in clear, a negative result is one of the documented codes.", "quantifier": "all clients, sequences of calls, messages, credentials, Windows worlds (results of Winsock, TLS and certificate store calls, server behaviour), i.e. all executions on Windows", "why_tests_cant": "The tests of the project run on one platform at a time and never compare the two; the equality concerns every sequence of calls and every behaviour of the system, and a platform difference shows only in particular failures or sizes.", "anchors": ["src/smtpclientbase.cpp:375-386", "src/smtpclientbase.cpp:389-458", "src/smtpclientbase.cpp:668-684", "src/smtpclient.cpp:47-72", "src/securesmtpclientbase.cpp:104-138", "src/securesmtpclientbase.cpp:144-258"]}
{"id": "C85", "title": "The error number is that of the last failure", "statement": "After any sequence of calls, getLastSocketErrNo returns the number with which the last failing system call failed, or 0 if none has failed; for a failure inside TLS it returns the number of the TLS library for that failure. After sendMail returned the code of a failed step of the opening, it is the number of exactly that step.", "quantifier": "all clients, sequences of calls, messages and behaviours of the operating system, the TLS library and the server, however the run ends", "why_tests_cant": "The number depends on the whole history of failures, including those inside cleanup and nested cleanups; tests would have to make every system call fail at every moment with every number.", "anchors": ["src/smtpclientbase.cpp:230-252", "src/smtpclientbase.cpp:306-308", "src/smtpclientbase.cpp:496-569", "src/smtpclientbase.cpp:571-600", "src/smtpclientbase.cpp:668-684", "src/securesmtpclientbase.cpp:144-154", "src/securesmtpclientbase.cpp:205-225", "src/securesmtpclientbase.cpp:288-315"]}
{"id": "C86", "title": "Before DATA is agreed to, only the addresses of a message matter", "statement": "Two messages with the same sender address and the same recipient addresses, sent in the same state, make the client do exactly the same, with the same result, until the server has agreed to DATA: names, subject, body and attachments have no influence before, neither on what is sent or logged nor on the result when the server refuses.", "quantifier": "all clients in all states, all pairs of messages with the same addresses, and all behaviours of the operating system, the TLS library and the server", "why_tests_cant": "Non-interference relates two runs for all pairs of messages and all behaviours of the world; a test compares single pairs.", "anchors": ["src/smtpclientbase.cpp:344-372", "src/smtpclientbase.cpp:838-895", "src/smtpclientbase.cpp:897-911"]}
{"id": "C87", "title": "Running out of memory leaves usable clients", "statement": "When an allocation fails inside a constructor, copy, assignment, setter or session of a client object, the std::bad_alloc that comes out leaves every client in a state in which it can be used or at least destroyed: no memory is read or freed that is not the program's own, every client that was not the target of the failed call keeps its server name, log, last response, authentication options and credential, and no memory is lost. Moves and destructors never fail, and with enough memory nothing fails.", "quantifier": "All programs of constructions, copies, assignments, moves, setters, session steps and destructions on any number of clients, all texts, every choice of which attempts to get memory fail, any number of failures.", "why_tests_cant": "Tests never make new fail, and the outcome depends on which of several allocations fails and on what the program does afterwards; the destructor runs in any case.", "anchors": ["src/smtpclientbase.cpp:42-281", "src/smtpclientbase.cpp:375-379", "src/smtpclientbase.cpp:752-758", "src/smtpclientbase.cpp:1012-1043", "src/smtpclientbase.cpp:1081-1141"]}
{"id": "C88", "title": "Running out of memory leaves usable messages", "statement": "When an allocation fails inside a constructor, copy or assignment of a message, the std::bad_alloc that comes out leaves every message in a state in which it can be used or at least destroyed: no memory is read or freed that is not the program's own, every other message keeps its sender, subject, body, recipients and attachments, no memory is lost, and the program can go on. Operations declared noexcept need no memory.", "quantifier": "All programs of constructions, copies, assignments, moves and destructions on any number of messages with any number of recipients and attachments, all texts, every choice of which attempts to get memory fail, any number of failures.", "why_tests_cant": "Tests never make new fail, and what is left behind depends on which of the many allocations of one assignment fails.", "anchors": ["src/message.cpp:22-89", "src/message.cpp:131-257", "src/message.cpp:287-346", "src/messageaddress.cpp:39-80"]}
{"id": "C89", "title": "Before the login, user name and password do not matter", "statement": "Two credentials for the same authentication method, given to the same client in the same state, lead to the same behaviour (results, log, exchanges with the server, timing, what is written where) up to the command with which the login is carried out: AUTH PLAIN or AUTH XOAUTH2 with its argument, or the answer to the server's 334 to AUTH LOGIN. If no such command is given, the whole lives of the two clients are the same.", "quantifier": "All three kinds of clients in all states, all pairs of credentials for the same method, all sequences of API calls, all messages, all behaviours of the server, the network and the TLS library.", "why_tests_cant": "It compares two executions for every pair of secrets and every behaviour of the server; a leak in a rarely taken path (a log line, an error code, an early command) would not show in a test of one user.", "anchors": ["src/smtpclientbase.cpp:760-836", "src/smtpclient.cpp:74-98", "src/opportunisticsecuresmtpclient.cpp:51-92", "src/forcedsecuresmtpclient.cpp:51-79"]}
{"id": "C90", "title": "Accepting self-signed certificates relaxes nothing else", "statement": "The setting that makes a secure client accept self-signed certificates has one effect only: the verdict of the TLS library that the certificate is self-signed (and no other fault of a certificate) is accepted. Two clients that differ in this setting behave the same in every respect (results, log, exchanges with the server, files read, waiting) up to the moment at which such a verdict is given, and for their whole lives if none is.", "quantifier": "All three kinds of clients in all states, all sequences of API calls, all messages, all behaviours of the server, the network and the TLS library.", "why_tests_cant": "It compares two executions for every behaviour of the peer and the TLS library, for all verdicts on certificates; tests have one or two certificates.", "anchors": ["src/securesmtpclientbase.cpp:156-258", "src/securesmtpclientbase.cpp:96-102"]}
{"id": "C91", "title": "A longer timeout changes nothing unless the shorter one runs out", "statement": "Two clients that differ only in the command timeout, given the same calls, return the same results, exchange the same with the world and end up the same but for the timeout, unless a wait lasts as long as the shorter timeout or select answers differently for the two timeouts. In particular a run in which nothing times out is the same with every longer timeout.", "quantifier": "every world, every state of the client, every two timeouts, every sequence of calls", "why_tests_cant": "Compares two runs for all servers, delays, calls and pairs of timeouts.", "anchors": ["src/smtpclientbase.cpp: getRawCommandReply, checkServerGreetings, initializeSessionPOSIX", "src/securesmtpclientbase.cpp: getServerReply", "src/forcedsecuresmtpclient.cpp: checkServerGreetings", "src/smtpclientbase.cpp: setCommandTimeout"]}
{"id": "C92", "title": "The communication log and the error number influence nothing", "statement": "Two clients that differ only in the text of the communication log, the size of its buffer and the last error number, given the same calls, return the same results, exchange the same with the world and end up the same but for log and error number. What is added to the two logs is the same text.", "quantifier": "every world, every state of the client, every two logs whose text fits the buffer, every two error numbers, every sequence of calls", "why_tests_cant": "Compares two runs for all servers, calls, log texts and buffer sizes.", "anchors": ["src/smtpclientbase.cpp: addCommunicationLogItem", "src/smtpclientbase.cpp: setLastSocketErrNo", "src/smtpclientbase.cpp: initializeSession", "src/securesmtpclientbase.cpp: startTLSNegotiation"]}
{"id": "C93", "title": "What is sent is within the sizes a server must accept", "statement": "Every command of a call of sendMail has at most 512 octets with its CR LF (RFC 5321, 4.5.3.1.4), or is a line of the requested authentication and has at most 12288 (RFC 4954), and every line of the message has at most 1000 (RFC 5321, 4.5.3.1.6), provided the addresses are within their own limit of 256 octets and user name and password are not excessive.", "quantifier": "all messages, clients, servers and runs, also failing ones", "why_tests_cant": "The length depends on addresses, display name and credentials, and on which of the three forms of MAIL FROM and which mechanism the server makes the client use; a server refuses long lines only on the day they occur.", "anchors": ["src/smtpclientbase.cpp:838-895", "src/smtpclientbase.cpp:760-836", "src/smtpclientbase.cpp:959-1066", "src/messageaddress.cpp:10-31"]}
{"id": "C94", "title": "A mail program shows the sender, recipients and subject that were meant", "statement": "After a successful sendMail, a mail program that reads the received header section by the rules of RFC 5322 (fields, folding, quoted strings, comments, mailbox lists) finds exactly the sender of the message in From, exactly the To and Cc recipients, with display names and addresses and in order, nobody in Bcc, and exactly one subject, that of the message.", "quantifier": "all messages, clients, servers and successful runs", "why_tests_cant": "Ranges over all display names and recipient lists; false for display names with characters that need quoting (a comma adds a recipient, angle brackets replace the sender's address), because the library never quotes.", "anchors": ["src/smtpclientbase.cpp: setMailHeaders, generateHeaderAddressValues", "src/messageaddress.cpp: operator std::string"]}
{"id": "C95", "title": "A mail program shows the attachments as they were named", "statement": "After a successful sendMail of a message with attachments, a mail program that reads the received parts by the rules of RFC 2045, RFC 2046 and RFC 2183 (parameters, quoted strings) finds one part for each attachment, in order, with exactly the file name and the content id given, the type that belongs to the extension, and base64 as encoding.", "quantifier": "all messages with attachments, clients, servers and successful runs, on POSIX and Windows", "why_tests_cant": "Ranges over all names and numbers of attachments; false for names with a quote (the name is cut and can bring a second file name) or a backslash (lost, as in every Windows path), because the library never escapes.", "anchors": ["src/smtpclientbase.cpp: createAttachmentsText", "src/attachment.cpp: getMimeType"]}
{"id": "C96", "title": "Nothing but US-ASCII is sent to a server that did not agree to more", "statement": "Whatever files are attached and whatever user name and password are used, everything sendMail sends consists of octets between 1 and 127, unless the server offered 8BITMIME or SMTPUTF8.", "quantifier": "all messages, file contents, credentials, clients, server behaviours and runs, on POSIX and Windows", "why_tests_cant": "Ranges over all texts, all file contents and all runs including failing ones; holds for every message of US-ASCII, and is false for other texts, because the library neither encodes them nor reads what the server offers.", "anchors": ["src/smtpclientbase.cpp: setMailHeaders, setMailBody, createAttachmentsText", "src/base64.cpp: Base64::Encode"]}
{"id": "C97", "title": "CR and LF are only sent together", "statement": "In everything sendMail sends, CR and LF occur only together as CR LF (RFC 5321 section 2.3.8), whatever the texts of the message, the files, user name and password contain, so that all servers see the same lines.", "quantifier": "all messages, file contents of any length, credentials, clients, server behaviours and runs, on POSIX and Windows", "why_tests_cant": "Ranges over all texts and files and all ways a run can be cut off; holds when the texts given have CR and LF only together, and is false for others: a body with line feeds is sent as it is.", "anchors": ["src/smtpclientbase.cpp: setMailHeaders, setMailBody, createAttachmentsText", "src/base64.cpp: Base64::Encode"]}
