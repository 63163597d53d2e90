# Formal model of CPP-SMTPClient-library (Lean 4)

The source is the pinned checkout in `/repo` (C++, `src/` and `src/cpp/`). It is read as text; nothing of it is built or run.
The Lake project is `lean/`; `lake build` there checks everything. No module imports Mathlib.

## 1. What is trusted

* **The Lean 4.33.0 kernel.** Theorems depend at most on the three standard axioms `propext`, `Classical.choice` and `Quot.sound`.
  Section 5 lists the axioms of every property theorem, as printed by `#print axioms`. There are no own axioms, no `sorry`, no
  `native_decide`, no `bv_decide`, no `implemented_by`, no `unsafe`.
* **The reading of the source.** A theorem is about the definitions in `lean/Verif/Model/`. Every definition there cites the file and
  lines that it models and says where it simplifies. The code was not run against the model.
* **The specifications** in `lean/Verif/Spec/`: they say what the English properties mean. They use no definition of the model except
  the data types of the API (addresses, messages, credentials) and the type of events.
* **The environment** (`Model/World.lean`): operating system, network, server, file system and OpenSSL are arbitrary functions from *the
  complete history of everything that happened so far* to the result of the next call. The server may be adaptive and hostile. Nothing is
  assumed about it unless a theorem says so in a hypothesis. Only results that the interface of a call excludes are ruled out: `recv`
  returns at most the requested number of bytes, `send` reports at most the given length.
* **The platform**: one thread, POSIX, LP64 (`size_t` 64 bit, `int` 32 bit), signed `char`, "C" locale, allocation never fails (except in `Model/Scarce`, C73, and `Model/ClientScarce`, C87, and `Model/MailScarce`, C88).

Undefined behaviour is a distinct outcome (`Stop.ub` with its cause), and so are unbounded recursion (`Stop.stackOverflow`), a loop that
did not end within the given number of rounds (`Stop.fuel`) and a system call that never returns (`Stop.hang`). Theorems about all
executions speak about the state that is reached in all of these outcomes.

### Which code is modelled

| source | modelled in |
|--------|-------------|
| `base64.cpp` (all) | `Model/Base64` |
| `stringutils.cpp` (all) | `Model/StringUtils` |
| `serveroptionsanalyzer.cpp`, reply parsing of `smtpclientbase.cpp` 1068-1141 | `Model/Reply` |
| `errorresolver.cpp`, `getErrorMessage`, `getErrorMessage_r` | `Model/Errors`; memory of `ErrorResolver` in `Model/Heap` |
| `messageaddress.cpp`: constructor, validation | `Model/Values`, `Model/Regex` |
| `credential.cpp`, `attachment.cpp`: constructors, setters, getters | `Model/Values`; `getMimeType`, `getBase64EncodedFile` in `Model/Mime` |
| copy, move, assignment, destructor of addresses, credentials, attachments | `Model/Heap` |
| the same when `new` throws | `Model/Scarce`; for clients `Model/ClientScarce`, for messages `Model/MailScarce` |
| `message.cpp`, `plaintextmessage.cpp`, `htmlmessage.cpp` | contents in `Model/Commands`; memory in `Model/MessageHeap` |
| texts of commands, headers and bodies (`smtpclientbase.cpp` 760-1010, 1045-1066, 1143-1154) | `Model/Commands` |
| communication log (`smtpclientbase.cpp` 1012-1043) | `Model/Log` |
| system calls and OpenSSL calls, as events | `Model/World` |
| `smtpclientbase.cpp` 344-836 without WinSock, `smtpclient.cpp`, `securesmtpclientbase.cpp`, `opportunisticsecuresmtpclient.cpp`, `forcedsecuresmtpclient.cpp` | `Model/Session` |
| copy, move, assignment of clients: connection state | `Model/ClientObjects` |
| the other branches of `#ifdef _WIN32`: `smtpclientbase.cpp` 375-493, `cleanup` of both classes, `startTLSNegotiation` with the root certificates | `Model/WinSock` |
| the dialogue on Windows, `sendRawCommand` 669-674 | `Model/Platform` |
| copy, move, assignment, destructor, setters of clients: memory | `Model/ClientHeap` |
| `src/cpp/*.cpp` except the example | `Model/Cpp` (contents), `Model/CppClients` (the credential pointer) |

### Which code is not modelled

* `DllMain`, the example program `src/cpp/example/send-mail.cpp`, `CMake` files, the tests.
* Windows is modelled twice, each time a part. `Model/WinSock` has every Winsock and certificate store call, but an arbitrary end in place of the
  dialogue (refused with or without `cleanup`, kept, closed) and no QUIT in `cleanup`. `Model/Platform` has the whole dialogue, but the opening as one
  step (`C84_opening_agrees` relates the two), the certificate store as one step, and `WSACleanup` only as far as it can fail.
* The inside of OpenSSL: `BIO_*` and `SSL_*` calls are events with an arbitrary result. What TLS guarantees is not a theorem here; the
  properties about TLS say which calls were made with which results before something was sent.
* The inside of `std::regex`: the pattern is modelled by the language that it denotes. The real matcher recurses and can use up the stack
  for long addresses.
* Signals (`SIGPIPE`), threads; allocation failure outside the four classes that own text (C73).
* Output to `std::cerr`.
* Integer wrap of sizes above 2^63, and of `int` counters in base64 above 2 GiB. Narrowing by the code itself is modelled: file size to 32
  bits, port to 16 bits, size arithmetic of the log.
* Host names: `gethostbyname` gives nothing or an address of any length. An answer of negative length counts as nothing, as in the code; an
  empty list of addresses (`h_addr` null) is not modelled. On Windows the address is part of the opaque result of `getaddrinfo`.

## 2. Shape of the model

* `Bytes = List UInt8`. A `const char*` argument is `Option Bytes` (`none` is null) and is read up to its first NUL.
* Pure helpers are total functions on byte strings.
* Session code is written in the state monad `M α := Env → St → Res α × St` over the client object and the history; every system call
  appends an event with its arguments and its result. One model covers the three client classes; virtual dispatch is a match on the class.
  Loops without a syntactic bound take fuel. The recursion between `cleanup` and `sendQuitCommand` has a depth.
* `doCall`, `runCalls` and `life` give all API calls on one client, and its destructor. `Model/ClientObjects` has programs over any number
  of client objects that share one world.
* Memory: a heap of blocks with addresses. Programs are lists of operations on any number of objects; freeing twice, reading dead memory
  and using the wrong `delete` are outcomes.

`Spec/` holds independent specifications: RFC 4648 decoder, lines, SMTP receiver, multipart reader, the history observers, the scripts of a
dialogue, the abstract values that the heap programs refine. `Proofs/` holds lemmas, `Props/` the property theorems, each with a concrete
case that meets the hypotheses.

Main proof devices:

* `wp` (`Proofs/Hoare`): weakest precondition for normal and for abnormal end.
* Frame classes (`Proofs/Frame`): for each group of functions one theorem says that any reflexive and transitive relation which contains
  the elementary steps of the group contains every run. Invariants of all executions are instances.
* Transcript theorems (`Deliver`, `Delivered`, `Dialogue`, `Speech`): a run that returns 0 is described exactly; any run is a prefix of a script.
* Relational proofs (`Twin`, `Blind`): two runs are followed in lock-step (C28, C32).
* Forward execution (`Feeds`, `Cooperation`): in a world described by hypotheses the result of a run is computed step by step (C09, C10, C72).
* Refinement (`Objects`, `Mails`, `ClientHeap`): heap programs against plain values (C18-C20, C59).

## 3. How each property is proved

A theorem whose name ends in `_partial` has a hypothesis that the English statement does not have. Each time the excluded case is refuted by
a theorem with a concrete witness next to it, or the note in section 5 says what is missing.

| id | how it is modelled and proved |
|----|-------------------------------|
| C01 | `Model.Base64.encode`; spec: RFC decoder that skips CR/LF; round trip by induction on 3-byte groups with a line counter |
| C02 | false above 49152 bytes: witness theorem; exact result `decode (encode x) = x.take 49152`; partial theorem for short inputs |
| C03 | alphabet, length formula and line bound by induction over groups |
| C04 | `trim` with `isspace` domain as UB; decomposition, maximality, idempotence |
| C05 | pointwise over 256 bytes, lifted by `List.map` |
| C06 | `stoi` of three characters; case analysis |
| C07 | last line computed by the model (`rfind`) against an independent line splitter |
| C08 | loop of the parser against "first AUTH line of the splitter" by induction on the text length |
| C09 | composition of segments; negations by witness, partial: TLS channel cut at line boundaries; cleartext in one read |
| C10 | negation by witness (last-line form, earlier segment), partial: single reply with hyphenated line |
| C11 | regular expression AST + derivative matcher; equivalence with an inductive language and with a hand-written decomposition |
| C12 | from C11: no CR/LF, hence one line |
| C13 | negation witness, partial for addresses without `>` |
| C14 | table function of the upper-cased extension |
| C15 | fold against `intercalate` |
| C16 | constructor models against a spec of "blank" |
| C17 | setter state machine, induction over call lists |
| C18 | heap model, invariant (every live pointer owned once, blocks allocated), induction over operation lists |
| C19 | heap/value model of `operator=`; negation witness; partial: all fields but the sender |
| C20 | negation witness (double free), partial: histories in which copy assignment only goes from messages with lists not emptier |
| C21 | wrapper conversion against value spec |
| C22 | negation for `cpp::SmtpClient`, positive for the other two |
| C23 | pointer-sharing model; negation witness; partial: histories without copies/moves after credentials were set |
| C24 | finite table, `decide` over the whole table lifted to all ints |
| C25 | buffer model as byte list, all lengths; negation for n=1 |
| C26 | log buffer invariant, induction over items |
| C27 | refinement to list of items; escaping lemma |
| C28 | relational proof: two runs step in lock-step, environment oblivious to sent bytes |
| C29 | success analysis of every function under "no reply code reads as 0"; negation witness otherwise |
| C30 | trace invariant over all executions; same hypothesis |
| C31, C33 | corollaries of the exact transcript theorem of successful runs |
| C32 | everything after the recipient phase is a function that does not see Bcc; transcript corollary |
| C34 | RFC 5321 receiver spec; round trip for contents without dot lines; negation witnesses |
| C35 | line splitter applied to the header text; negation witness |
| C36 | multipart reader spec; partial: body without boundary lines, at least one attachment |
| C37 | base64 round trip + alphabet; negation for 4 GiB |
| C38, C39, C40 | trace invariants over all executions and call histories; negation witnesses |
| C41 | decision table; negation (null) witness |
| C42 | standard decoder applied to the AUTH argument |
| C43 | counting sleeps; non-termination theorem for endless data |
| C44 | recursion with depth bound; negation: for every bound it is exceeded while sending fails |
| C45 | trace invariant "closed ⊆ opened, no double close"; leak witness |
| C46 | transcript theorem iterated over a list of mails |
| C47 | negation witness; partial for send failures and timeouts |
| C48 | classification of return values; negation for 1 |
| C49 | enumeration of the UB causes that are reachable, exclusion of all others; witnesses |
| C50 | ownership invariant over operations on several clients |
| C51 | case analysis of the fallback loop against a spec on reply lists |
| C52 | trace analysis of the connect function |
| C53 | loop analysis; negation at the boundary |
| C54 | trace invariant |
| C55 | heap model; invariant "every live block is owned by a live object", induction over programs; leak witness for `setContentId` |
| C56 | transcript of the opening: ends with a complete exchange that carries the credentials and is answered 235; two negations |
| C57 | after STARTTLS was sent, case analysis of what can follow; the mail part is on a TLS channel |
| C58 | the end mark is only sent by a run whose content writes all succeeded; trace analysis of all outcomes |
| C59 | refinement of heap programs to plain values, also with sessions in between |
| C60 | ownership invariant with an exact count of lost blocks, for heap programs and for whole sessions; leak witnesses |
| C61 | every run is a prefix of a script (`Spec/Dialogue`), in all outcomes |
| C62 | invariant "the channel of the last unanswered command", for all client states and calls |
| C64 | split of every run at the reading of the files: nothing read before, exactly the list of the message, nothing after |
| C63 | weaving lemma from the bytes read to the stored offer; the EHLO, its reply and AUTH followed as one block on one channel |
| C65 | invariant: socket and BIO each lead to a recorded opening with no close since; link between the API calls in the history and the members; C52 for the opening |
| C66 | invariant over all programs: objects with the flag ≤ Winsock's count; exact for programs that never restart; weakest preconditions for the Windows monad |
| C67 | weakest preconditions through all exits of the negotiation, counting stores |
| C68 | two runs side by side from states that agree in the settings; flags say which further members agree, and each is shown to be overwritten before it is read; the same again for different histories, with the numbers of TLS connections counted from the start of each run (`Worlds`, `Mates`) |
| C69 | invariant over the whole life: the transcript computed from the history, with the entry that is logged but not yet sent, is a sublist of the client entries of the log; a counter for the lines to be kept secret |
| C70 | a cost calculus (commands sent, calls of select) over all functions, and a sum over the bounds of C43 along the history |
| C71 | as C69, with the replies: the conversation is computed from the history by a small automaton (seconds waited, parts of a reply); the entries that are owed to the log are part of the invariant |
| C72 | forward reasoning (`Runs`, `Live` in `Proofs/Cooperation`): the state of the client and of the dialogue is followed exactly through every function in a world where the system calls succeed and the server accepts; `Between72` is the invariant between API calls |
| C73 | the member functions again with an oracle that lets allocations fail (`Model/Scarce`); an operation that succeeds equals the one of C18 (shadow lemmas), one that fails leaves the separation-logic invariant for the objects that are not hidden |
| C74 | the heap relation of C20 (`MRel`) with the exact number of leaked cells; `lostArrays` counts the overwritten arrays on the value side |
| C75 | an invariant over the whole life (`Care` in `Proofs/TlsFreed`): every TLS connection made so far is the one in the object, was freed, or was followed by a further request; "at most once" comes from C48 |
| C76 | induction over the list of calls; the wrappers' calls are equal to the base calls as programs, so the equation holds for every environment and state |
| C77 | the events of the opening are followed read by read (`Took`, `OneReply` in `Proofs/Welcome`): which reads make one reply is part of the specification, so pieces cannot be merged |
| C78 | the opening is followed twice at once: an invariant on everything sent in clear (`Small`), and the exact events with the text of the answer to EHLO (`identify_last`); then an invariant on the mail (`Open`: the socket is one without the offer, or closed) |
| C79 | a second kind of invariant (`Safe` in `Proofs/Safe`): broken and restored while a reply is read, and weaker where the program stops in the middle; every event is checked against the history before it (`ModeOk`) |
| C80 | the same frame (`SafeTalk`), with an invariant that names the one channel on which a reply may be missing (`Owing`); reading a reply or closing the connection clears it |
| C81 | the world of objects on Windows with the open handles computed from the history; an invariant (`OwnersW`) that what objects hold is open and different, kept by each operation; a second one (`AllHeld`) that every open handle is held |
| C82 | each function is given the histories its codes can mean (`Told`, `TellsCause` in `Proofs/Told`), with a relation for closing (`OnlyCloses`), one for waiting (`Awaited`) and one for a command with its reply (`FbOut`); an invariant (`CanSend`) shows that a header or piece that fails was really tried |
| C83 | `WinOpening` lists the five ways an opening goes with code, number and log; each function of the Windows branch is given what it adds to log and number (`Reported`) by weakest preconditions that exclude stopping |
| C84 | the code of the dialogue once more with the platform's functions as parameters (`Model/Platform`), proved equal to the model of POSIX with POSIX functions (`Proofs/Platform`); from a Windows world a POSIX world is computed that answers like it (`asPosix`, `Proofs/Beside`), and a relation between the two runs (`Beside`) is kept by every function (`Sim`, `SimC`) |
| C85 | a relation `ErrnoKept` between states (the error number follows the failures in the history, or is one the TLS library gave later), kept by every function; a failure and the recording of its number are one step (`Due`); the code that asks the TLS library only for clients with TLS (`SecureErrno`) |
| C86 | two runs in the same world side by side (`ForkAt`): equal, or equal up to a history with a stated end; the parts before DATA are equal as programs because they use the addresses only |
| C87 | a monad of attempts that carries what an exception leaves behind; what succeeds does the same as with plenty of memory (`Shadows`), so that C59's refinement applies to the clients that have a value (`seen`); what fails only grew the heap (`Growing`, `Strong`) or gave up the cells of one client (`Frail`) |
| C88 | the tools of C87 on the messages of C20; arrays that a loop had begun to fill are what an exception leaves behind (`tryFill`, `Grows`); a failed move assignment ends the run, since it is `noexcept` |
| C89 | two runs with different credentials side by side: the parts before the login preserve `Apart` (instance of `Alike`, so that C86's twins apply), and the login itself cuts both histories at the same place (`Split`, `Parts`) |
| C90 | as C89, with `acceptSelfSigned` in place of the credential; the one place that reads it comes just after the verdict, where both histories are cut (`Judges`, `judges_verdict`) |
| C91 | as C90, with the timeout in place of the setting; the waiting loops are followed in both runs side by side with the stretch of history waited so far (`waitLoop_parts`, `rawReplyLoop_parts`), everything else preserves `Slow` (instance of `AlikeButTimeout`) |
| C92 | two runs side by side as in C90, but no place parts them: every part preserves `Diag` (instance of `Alike`); two appends to logs that fit succeed and add the same text (`log_add_ok` of C26) |
| C93 | the relation of C32 that allows only given texts (`Saying`), with "within the limits" as the texts; the length of base64 from C03; for the lines of the message the script of C61 with the exact text of the body (`sendMail_follows_exactly`) and `lines (a CRLF b) = lines a ++ lines b`; two concrete runs that break the limits |
| C94 | the header section of C35, read by a small reader of RFC 5322 (`Spec/Reader`: fields, folding, quoted strings, comments, mailbox lists); the reader is followed through the list of addresses by induction; two concrete runs in which the reader finds somebody else |
| C95 | the parts of C36, their headers read by a small reader of RFC 2045 (`Spec/Parts`: value and parameters, quoted strings); concrete runs in which the reader finds other names |
| C96 | the relation of C32 that allows only given texts (`Saying`), with octets from 1 to 127 as the texts; base64 from C03; a concrete run with a body in UTF-8 and a server without extensions |
| C97 | a grammar of texts with CR LF only (`LineEnds`), closed under joining; base64 by induction on the groups of three bytes; commands by `Saying` as in C93, the text by the script of C61; a concrete run with a line feed in the body |

## 4. What the proofs found in the code

The properties say what a user may expect. Where the code does not do it, a theorem shows a run in which it fails.

Sending
1. A reply that begins with `000` (or `0ab`) reads as number 0, which the callers take for success: mail is reported as sent, content is
   sent without 354, authentication and STARTTLS are skipped (C29, C30, C56, C57, C58, C61). A reply like `-85 x` collides with an error
   code of the library (C48).
2. Short writes are ignored, `BIO_puts` returning 0 counts as success (C29).
3. Errors of sending the To and Cc headers are ignored; after a lost connection commands go to descriptor 0 (C29, C39).
4. No dot-stuffing: a body line that begins with a period is changed or ends the mail (C34).
5. CR LF in the subject or in a display name adds header lines (C35).
6. The multipart boundary is a constant, and it is not closed when there are no attachments (C36).
7. Attachments of 4 GiB and more are cut, because the size goes through 32 bits (C37).
8. Accepted addresses can contain `>` (C13).
9. After the server refused a command the connection counts as usable, and the next mail continues the old transaction (C46, C47).
10. A mail that the server accepted is reported as failed (-99) when QUIT cannot be sent.
11. `addMailRecipients` goes on after a failure.

Connection and TLS
12. STARTTLS is only recognised as `250-STARTTLS` in the last part of the reply that was read (C10); then mail goes out in clear and a
    requested authentication is skipped without a word (C56).
13. After one session without STARTTLS the opportunistic client keeps sending in clear, also credentials (C38).
14. When the system's certificates cannot be loaded, the next attempt of the opportunistic client uses a TLS connection whose certificate
    was never looked at (C40). The name in the certificate is never compared with the server name.
15. How an EHLO reply is cut into segments decides what is understood (C09). Over TLS a reply in two segments is taken for two replies (C54).
16. Data that arrive when the waiting time equals the timeout are read and dropped (C53). With timeout 0 every greeting fails.
17. Reads of the greeting and under TLS block; a silent server keeps the client for ever. Endless data keep a wait in clear running (C43).
18. Failing writes in batch mode: `cleanup` and `sendQuitCommand` call each other until the stack is used up (C44).
19. A failed connection attempt leaves its socket (and TLS objects) behind; descriptor 0 is never closed; `close(-1)` (C45).
20. The port is taken modulo 65536 (C52). A failing `fcntl` makes sendMail return 1 (C48). `EINTR` counts as a timeout.

Undefined behaviour
21. A reply of 1024 bytes or more in clear: write behind the buffer (C49).
22. No mechanism offered: null pointer in `authenticateClient` (C41, C49).
23. Bytes above 127 in a reply: `isspace` out of its domain (C49).
24. Descriptors of 1024 and more: `FD_SET` out of bounds (C49). Long server names: `sprintf` into 1024 bytes (C49). A resolver that answers
    with more than four bytes (an IPv6 address): `memcpy` into `sin_addr` with the length of the answer (C49).
25. `Message` copy assignment keeps stale arrays (double free) and does not copy the sender; null subject or body: `delete[]` of `new`
    (C19, C20).
26. cpp clients share their credential after a copy or move: double delete (C23). `cpp::SmtpClient` drops the chosen mechanism (C22).
27. Setters that are given the object's own text read deleted memory (C18, C23, C59).
28. Copying a moved-from client: `strlen(nullptr)` (C50).

Memory and texts
29. `setContentId` leaks (C55); client copy assignment leaks the log, the last response and the credential (C60); assignment onto a
    connected client leaks its socket (C50).
    `extractAuthenticationOptions` leaks one `ServerAuthOptions` for every reply to EHLO whose AUTH line is after the first line and followed by
    a line break: the rest of the reply is parsed first, then the line, and the second result replaces the first (C60). Most servers send
    such replies.
30. `Base64::Decode` returns at most 49152 bytes (C02). AUTH lines break for credentials of 49150 bytes and more (C42). The XOAUTH2 text
    is ambiguous for user names that contain byte 1 (C42).
31. `getErrorMessage_r` with a buffer of length 1 tells that it truncated nothing (C25).
32. A server that repeats the AUTH line in its reply puts the credentials in the log; C28 excludes it by asking that the answers do not
    depend on them.
33. In batch mode, `setServerName` and `setServerPort` have no effect while the connection lives: the next mail goes to the old server, and the
    getters answer with the new one (C65).

Windows
34. A refused session is not closed by every path; the next attempt starts Winsock again, but only one stop follows. The same happens after
    assignment to a connected object (C66).
35. A move takes the connection but not `mWSAStarted`. Destroying the source stops Winsock under the connection of the target, and when
    `WSACleanup` fails it writes to a null log (C66).
36. After a failed `connect` the socket stays, Winsock is stopped, and the destructor closes the socket afterwards (C66). The list of
    addresses from `getaddrinfo` is never freed (read in the source, not modelled).
37. The system certificate store stays open after every failure that follows its opening (C67). `d2i_X509` gets the address of a member of
    the shared certificate context and advances it (read in the source, not modelled).
38. An opportunistic client whose login or second EHLO was refused is not connected but keeps the TLS connection. Its next session
    opens a new socket and then says EHLO over the old TLS connection (C68). The plain and the forced client go on like new ones.
39. Replies are put into the communication log as they are. A reply with a line `c: DATA\r\n` in it makes the log show a command that was
    never sent (C69); only client entries have their line ends escaped.
40. A greeting or a reply over TLS that is there when the client looks for the last time, after the whole timeout, is read and thrown away: the
    result is a timeout and the communication log is silent about what the server said (C71).
41. A recipient that the server accepts with `251 User not local; will forward` (a positive reply in RFC 5321) ends the session: `sendMail`
    returns 251 (C72).

Memory that runs out
42. The copy assignments delete the members before they allocate, and so do `Credential::setUsername` and `setPassword`. When the allocation throws
    `std::bad_alloc`, the members keep the addresses of deleted blocks and the destructor frees them again (C73). Constructors with two
    or three members lose what they had allocated (C73). `Attachment::setContentId` and the moves are safe.

Memory of messages
43. A message constructed with an array of no elements (a non-null pointer and count 0) and then assigned from a message that has elements in
    that list loses its array: the copy assignment looks at the count, not at the pointer (C74). The destructor looks at the pointer.
44. A secure client whose attempt fails after the TLS connection was made and without `cleanup` (a refused login, for instance) keeps that
    connection in the object; the next `sendMail` makes a new one and overwrites the pointer. The old connection and its socket stay open until
    the process ends (C75, `C75_overwritten`). The model has the `BIO` of each connection as an event; the `SSL_CTX` is only a flag, so
    nothing is said about how many contexts are lost.

45. An opportunistic client whose login was refused over TLS sends the next mail in clear, without a login, to a server that offers STARTTLS
   (`C78_after_refused_login`). It keeps the old TLS connection (44), says EHLO there, finds no offer of STARTTLS – a server must not offer it over TLS –
   and takes this for the answer of the new connection, on which it never said EHLO.

46. `getRawCommandReply` ignores whether the socket could be switched back to blocking mode (`C79_refused`): if the operating system refuses, the rest of the
   session is written in non-blocking mode, where a full send buffer cuts a write short, and `sendMail` reports success. Descriptor 0 can be in
   non-blocking mode when it is written to (`C79_zero`).

47. In clear the end of the connection is not told from silence (`getRawCommandReply` treats 0 and -1 received bytes alike as long as nothing came, and after a reply 0 makes it
   wait for the whole timeout): a reply followed by the end of the connection counts, and the next command is sent on the closed connection (`C80_after_end`).
   After a recipient without reply the remaining ones are written to descriptor 0 one after the other (`C80_zero`).

48. On Windows sockets leak: a refused connection leaves its socket in the object and the next attempt overwrites it (`C81_refused_leaks`: one handle per retry), as does assigning
   to a connected object (`C81_assign_leaks`) or sending again after a session that failed without `cleanup` (`C81_left_open_leaks`). After a failed `socket` the destructor
   shuts down and closes -1 (`C81_closes_minus_one`).

49. Error codes mislead in these cases (C82): a reply that does not start with a number is reported at once as a timeout of the command (-86, -88, …), because `getRawCommandReply`
   and `getServerReply` return -1 for both, and such a greeting as a failure to create the socket (`C82_garbled`). A timeout inside AUTH LOGIN is reported as -81 (`C82_login_timeout`).
   A failure to send the To or Cc header is reported as one of the Subject header; -92 is never returned (`C82_address_header`). A client made for TLS that has lost its TLS
   connection reports that the From header could not be sent without having tried (`C82_no_tls`). A signal during `select` is reported as a timeout (`C82_interrupted`).

50. On Windows the recorded error number of a failed opening is overwritten when `WSACleanup` fails too (`C83_number_overwritten`); `mLastSocketErrNo` has no public
   getter, so it is visible to subclasses only. Failing to switch a socket back to blocking mode is reported with the code for a failed `fcntl(F_GETFL)`, and
   its text is looked up with `strerror`, which does not know Winsock's numbers (smtpclientbase.cpp:449-458).

51. On Windows `sendRawCommand` refuses a text longer than the largest `int` before anything else: the code of the step is returned, but nothing is cleaned up
    (`C84_session_left_open`; on POSIX the same code means that the session was closed, `C84_posix_closes`), and a To or Cc header of that size is left out without any sign
    (`C84_header_left_out`). After a failed `send` on Windows the number recorded is `errno`, which Winsock does not set (smtpclientbase.cpp:679); the model takes any number there.
52. The error number is never reset: after a call that fails without a failing system call it is still that of an earlier call (`C85_stale`). Failed reads (`C85_reading`), an unknown
    host and a refused certificate (`C85_certificate`) leave no number. After a failed TLS connection or handshake the TLS library is asked for its number only after the session was closed
    (`C85_tls_late`).
53. A server that answers MAIL FROM with 501 is told the display name of the sender in the envelope, `MAIL FROM: <Ann me@here.org>`, which RFC 5321 does not allow (`C86_name_in_envelope`).
    A reply to DATA that reads as 0 is taken for agreement: the body is sent, without a header (`C86_not_agreed`).
54. `std::bad_alloc` while a session replaces the last reply of the server (`setLastServerResponse`) or the log of the previous session, or while `setCredentials` replaces a credential (in every program: `C87_spoilt_for_good`), or inside `setServerName` or a
    copy assignment, leaves a dangling pointer in the client; the destructor, which runs in any case, then frees twice
    (`C87_response_then_destroyed`, `C87_log_then_destroyed`, `C87_credential_then_destroyed`, `C87_assigned_then_destroyed`), and the getters read freed memory
    (`C87_name_then_read`). The log entries and the authentication options do it right. A copy that fails loses what it had allocated (`C87_copy_loses`).
55. The move assignment of `Message` is `noexcept` but copies the sender (`mFrom = other.mFrom`, message.cpp:321): when there is no memory for the copy the program is
    terminated (`C88_move_assignment_ends_program`). A copy assignment that runs out of memory leaves a message whose destructor frees twice
    (`C88_assigned_then_destroyed`) or deletes pointers that were never written (`C88_array_then_destroyed`); a failed copy loses memory (`C88_copy_loses`).
56. Nothing limits the length of a line. An address of 500 characters is accepted and sent in a command of more than 512 octets (`C93_long_command`). An
    attachment is sent as one base64 line of up to 65536 characters: from a file of 748 bytes on it is longer than the 998 characters RFC 5321 and RFC 5322
    allow (`C93_long_line`).
57. Display names are never quoted. A recipient with the display name `Doe, John` is read by a mail program as two recipients, one of them with the
    address `Doe` (`C94_name_with_comma`); a sender with the display name `Boss <boss@corp.com>` is read as `boss@corp.com`, while MAIL FROM names
    another address (`C94_other_sender`).
58. Names of attachments are put between quotes without escaping. The name `a.txt"; filename="b.exe` is read as two file names (`C95_quote_in_name`);
    the backslashes of a Windows path used as name are lost (`C95_backslash_in_name`). A file with an extension that is not in the table is sent with
    an empty type (`Content-Type: ; file="..."`), which is no valid field (`C95_no_type`).
59. A subject, name or body outside US-ASCII is sent as it is, though the client never looks whether the server offers 8BITMIME or SMTPUTF8 and never asks
    for them in MAIL FROM; the text part has no Content-Transfer-Encoding (`C96_eight_bit_unasked`). Attachments and logins are safe, they are in base64
    (`C96_seven_bit_partial`).
60. Line feeds in a body are not turned into CR LF: a body taken from a text file on Linux breaks RFC 5321 section 2.3.8 (`C97_lone_line_feed`). Everything
    the library adds itself has CR LF (`C97_line_ends_partial`).

## 5. Status, theorems, axioms

Axioms: 0 = none, p = `propext`, q = `Quot.sound`, c = `Classical.choice`. All names are in the namespace `Verif.Props`.

**C01 Base64 output is decodable by any standard decoder** — proved
* `C01_standard_decoder_inverts_encode` (pq)
* `C01_encode_injective` (pq)

**C02 Base64::Decode inverts Base64::Encode** — partial
* `C02_decode_encode_exact` (pq)
* `C02_decode_inverts_encode_partial` (pq)
* `C02_round_trip_fails_iff_long` (pq)
* `C02_round_trip_fails` (pq)

  false for inputs above 49152 bytes (C02_round_trip_fails); exact result and exact failure condition proved

**C03 Shape of the base64 output** — proved
* `C03_encode_alphabet` (pq)
* `C03_encode_no_nul` (pq)
* `C03_encode_length` (pq)
* `C03_encode_line_length` (pq)
* `C03_single_line_iff` (pq)

**C04 trim removes exactly the surrounding white space** — proved
* `C04_trim_correct` (pq)
* `C04_trimmed_unique` (pq)
* `C04_trim_defined_iff` (pq)
* `C04_trim_ascii` (pq)
* `C04_trim_idempotent` (pq)
* `C04_trim_empty_iff` (pq)
* `C04_trim_total` (pqc)

**C05 Case conversion** — proved
* `C05_case_length` (p)
* `C05_case_changes_only_letters` (p)
* `C05_case_idempotent` (pq)
* `C05_case_equality` (pqc)

**C06 Reading the reply code of a server reply** — proved
* `C06_three_digits` (pqc)
* `C06_code_of_any_text` (pqc)
* `C06_code_range` (pqc)
* `C06_no_code` (pqc)

**C07 A complete EHLO reply is recognised exactly by its last line** — proved
* `C07_complete_iff` (pqc)
* `C07_covers` (pqc)

**C08 Advertised authentication mechanisms are read from the first AUTH line** — proved
* `C08_mechanisms_of_first_auth_line` (pqc)
* `C08_nothing_reported` (pqc)
* `C08_no_crlf` (pqc)

**C09 The EHLO reply is understood whatever way the network cuts it into pieces** — partial
* `C09_tls_partial` (pqc)
* `C09_clear_partial` (pqc)
* `C09_last_line_alone` (p)
* `C09_auth_line_lost` (p)
* `C09_opportunistic_second_batch` (p)
* `C09_tls_last_mechanism_lost` (p)

  Proved for every reply and every way of cutting it at line boundaries: over TLS (all segmentations) when the only AUTH line is not the last line; in clear when the last batch has at least two lines and no later batch starts with an AUTH line. The remaining cases are refuted by concrete runs (C09_last_line_alone, C09_auth_line_lost, C09_opportunistic_second_batch, C09_tls_last_mechanism_lost).

**C10 Opportunistic client starts TLS when the server offers it** — partial
* `C10_starttls_partial` (pqc)
* `C10_last_line_ignored` (p)
* `C10_second_batch_ignored` (p)

  Proved for every world in which the session opens, the greeting is 220 and the EHLO reply (ASCII, with a line 250-STARTTLS) arrives in one batch with arbitrary cuts: the next command is STARTTLS. Refuted for 250 STARTTLS in the last line and for replies in several batches.

**C11 E-mail validation accepts exactly the documented pattern, ignoring case** — proved
* `C11_valid_iff` (pqc)
* `C11_case_insensitive` (pqc)
* `C11_constructor` (pqc)

**C12 An accepted e-mail address cannot break out of its SMTP command line** — proved
* `C12_accepted_address_facts` (pqc)
* `C12_rcpt_one_line` (pqc)
* `C12_mail_from_one_line` (pqc)
* `C12_display_name_can_break` (p)

**C13 The address in angle brackets is unambiguous** — partial
* `C13_server_reads_address_iff` (pq)
* `C13_address_unambiguous_partial` (pq)
* `C13_address_ambiguous` (pqc)

  false for accepted addresses containing ">" (C13_address_ambiguous); exact condition proved

**C14 Attachment MIME type depends only on the extension, ignoring case** — proved
* `C14_mime_type` (pqc)
* `C14_one_type` (pqc)
* `C14_extension_exists` (pq)
* `C14_file_type` (pqc)
* `C14_case_insensitive` (pqc)

**C15 Address lists in To and Cc headers** — proved
* `C15_header_value` (pq)
* `C15_header_value_parses` (p)
* `C15_comma_ambiguous` (0)

**C16 Blank names are rejected and nothing else is** — proved
* `C16_client_server_name` (pqc)
* `C16_set_server_name` (pqc)
* `C16_credential` (pqc)
* `C16_set_username` (pqc)
* `C16_set_password` (pq)
* `C16_attachment` (pqc)
* `C16_attachment_null` (pqc)

**C17 A rejected setter leaves the object unchanged** — proved
* `C17_attachment` (pq)
* `C17_credential_throw` (p)
* `C17_credential` (pqc)
* `C17_sendMail_keeps_config` (pq)
* `C17_client_throw` (pqc)
* `C17_client` (pqc)

**C18 Value objects are memory safe and independent under every history of copies and moves** — partial
* `C18_values_partial` (pqc)
* `C18_copies_independent_partial` (pqc)
* `C18_own_text` (p)

  Proved as a refinement of plain values for every program; excluded is giving a credential's setter its own text, where the claim is refuted (C18_own_text).

**C19 Copy assignment makes a message equal to its source** — partial
* `C19_assignment_partial` (pqc)
* `C19_sender_kept` (p)

  Proved for everything but the sender, at every point of every program; the sender is refuted (C19_sender_kept).

**C20 Messages are memory safe under every history of copies and moves** — partial
* `C20_histories_partial` (pqc)
* `C20_stale_list` (p)
* `C20_null_subject` (p)

  Proved for every program that does not destroy or move-assign to a message with a stale list and uses no null subject or body; refuted otherwise (C20_stale_list, C20_null_subject).

**C21 Conversion from the C++ message API keeps the content** — proved
* `C21_conversion_keeps_content` (pq)

  All cpp messages built from constructed addresses and attachments, both classes, whether or not the data pointer of an empty vector is null. Moved-from address objects are excluded (they hold null pointers).

**C22 The recommended authentication method set through the C++ API is honoured** — partial
* `C22_secure_clients_partial` (pq)
* `C22_base_clients` (pq)
* `C22_handed_over` (pq)
* `C22_method_lost` (p)

  Proved for whole lives of the two secure cpp clients and of all base clients; false for cpp::SmtpClient, which drops the method (C22_method_lost).

**C23 C++ API clients can be copied and moved safely** — partial
* `C23_careful_programs_partial` (pq)
* `C23_double_delete` (pq)
* `C23_own_credentials` (pq)

  False in general: after a copy or move, setting credentials on both deletes twice (C23_double_delete, for every careful program and every copy), and setting a client's own credentials reads deleted memory. Proved for every program that never replaces shared credentials.

**C24 Every error code of the library has its own message** — proved
* `C24_specific_iff` (pq)
* `C24_messages_distinct` (pq)
* `C24_getErrorMessage` (pq)
* `C24_timeouts_are_named` (pq)

**C25 getErrorMessage_r never writes outside the caller's buffer and tells whether it truncated** — partial
* `C25_writes_longest_prefix` (pq)
* `C25_return_value_exact` (pq)
* `C25_return_value_partial` (pqc)
* `C25_return_value_fails` (pq)
* `C25_rejects` (0)

  the return value is wrong for buffers of length 1 (C25_return_value_fails); everything else proved, exact condition proved

**C26 The communication log never overflows its buffer** — proved
* `C26_log_in_bounds` (pq)
* `C26_session_log_in_bounds` (pq)

**C27 The communication log is append-only and exact** — proved
* `C27_log_exact` (pq)
* `C27_client_items` (p)
* `C27_client_items_injective` (p)
* `C27_append_only` (pq)
* `C27_new_session_new_log` (p)
* `C27_only_entries` (pq)

**C28 The communication log does not reveal the credentials** — proved
* `C28_log_tells_no_credentials` (pqc)
* `C28_whole_life` (pqc)

  Two-run (relational) proof over the whole session model. Two clients differing only in user name and password, in any world whose answers do not depend on them, return the same result and leave the same log; also for whole sequences of API calls.

**C29 sendMail returns 0 only when the server accepted the whole message** — partial
* `C29_constructors_nul_free` (pq)
* `C29_zero_means_delivered_partial` (pqc)
* `C29_zero_reply_counts_as_success` (p)
* `C29_short_writes_count_as_success` (p)
* `C29_descriptor_zero` (p)

  false when a reply reads as number 0, when a write is short, or when the socket has number 0 (three witnesses); proved when none of these happens

**C30 Message content is only transmitted after the server agreed to receive it** — partial
* `C30_content_only_after_agreement_partial` (pqc)
* `C30_zero_reply_agrees` (p)

  false when a reply reads as number 0 (C30_zero_reply_agrees); proved for all executions, also failing ones, otherwise

**C31 Every recipient is announced exactly once in order** — partial
* `C31_recipients_in_order_partial` (pqc)
* `C31_announced_partial` (pqc)
* `C31_zero_skips_recipients` (p)

  Order and no repetition proved for all runs, also failing ones. That none is skipped is false when a reply reads as number 0 (C31_zero_skips_recipients); proved otherwise, also with short writes (C31_announced_partial).

**C32 Blind-copy recipients are not disclosed in the message** — proved
* `C32_same_from_data` (pqc)
* `C32_only_in_rcpt` (pqc)

  Relational proof: whatever the past of the client, two messages that differ in Bcc only give the same events from DATA on and the same result when the world answers alike from there on and DATA goes over a connection (not to descriptor 0 after a lost connection). Every text sent is one that may be sent for the message without Bcc, or RCPT TO a Bcc address (messages made by the constructors: no NUL).

**C33 The body is transmitted completely, in order, in pieces of at most 512 bytes** — proved
* `C33_body_complete_in_pieces` (pqc)

**C34 SMTP receiver recovers exactly the message data (transparency)** — partial
* `C34_transparent_iff` (pqc)
* `C34_receiver_gets_data_partial` (pqc)
* `C34_data_cut` (p)

  Exact criterion: the receiver gets the data iff no data line begins with a period (C34_transparent_iff); proved for bodies without such lines, refuted for others (no dot-stuffing: C34_data_cut).

**C35 User text cannot add header lines** — partial
* `C35_header_section_iff` (pqc)
* `C35_no_added_lines_partial` (pqc)
* `C35_injected_header` (p)

  Exact criterion: header section as meant iff no CRLF in subject and display names (C35_header_section_iff); refuted otherwise (C35_injected_header).

**C36 The MIME structure can be parsed back** — partial
* `C36_parsed_back_partial` (pqc)
* `C36_not_closed` (pqc)
* `C36_body_cut` (pq)

  Proved for messages with attachments and bodies without the boundary, with one extra line end after the body; without attachments the multipart is never closed (C36_not_closed), and the fixed boundary can be in the body (C36_body_cut).

**C37 Attachments arrive bit-exact** — partial
* `C37_files_arrive_partial` (pqc)
* `C37_large_file` (pq)

  Proved for files below 4 GiB; refuted for a file of 4 GiB (C37_large_file).

**C38 Secure clients never send credentials in clear** — partial
* `C38_forced` (pqc)
* `C38_opportunistic_partial` (pqc)
* `C38_public_is_not_auth` (pq)
* `C38_sticky_flag` (p)

  false for the opportunistic client after one session without STARTTLS (C38_sticky_flag); proved for the forced client and for the opportunistic client while its send commands are not switched

**C39 Forced client sends everything inside TLS** — partial
* `C39_forced_partial` (pq)
* `C39_descriptor_zero` (p)

  false when the operating system gives socket number 0 (C39_descriptor_zero); proved when it never does

**C40 Nothing is sent over TLS before the certificate was accepted** — partial
* `C40_forced` (pq)
* `C40_secure_partial` (pq)
* `C40_unverified_reuse` (pq)

  proved for the forced client without condition; false for the opportunistic client after a failure to load the system's certificates (C40_unverified_reuse), proved for it when that does not happen

**C41 Authentication uses an advertised and permitted mechanism** — partial
* `C41_mechanism_partial` (pq)
* `C41_no_offer_crashes` (p)
* `C41_crash_reachable` (p)

  false when the server offers no mechanism (C41_no_offer_crashes, C41_crash_reachable); proved for every offer

**C42 AUTH payloads carry exactly the credentials on one line** — partial
* `C42_commands_without_nul` (pq)
* `C42_plain_partial` (pq)
* `C42_login_partial` (pq)
* `C42_xoauth2_partial` (pqc)
* `C42_long_credentials_break_the_line` (pq)
* `C42_xoauth2_ambiguous` (p)
* `C42_exchange_partial` (pqc)

  false for credentials of 49150 bytes and more and for XOAUTH2 user names containing byte 1; exact conditions proved

**C43 Waiting for a reply is bounded by the command timeout** — partial
* `C43_seconds_between_commands_partial` (pqc)
* `C43_one_wait_partial` (pqc)
* `C43_timeout_zero_sleeps` (p)
* `C43_blocking_greeting` (pq)
* `C43_endless_reply` (pq)

  Proved: seconds slept for every reply are bounded by max 1 timeout, in every run. Refuted: timeout 0 still sleeps once; the greeting read blocks for ever; endless data keep a clear-text wait running

**C44 Error handling terminates** — partial
* `C44_cleanup_recursion` (pq)
* `C44_sendMail_recursion` (p)
* `C44_cleanup_terminates_partial` (pq)
* `C44_cleanup_without_batch` (pq)

  Refuted: batch-mode cleanup recurses until the stack is used up when writes fail. Proved: it returns in all other cases (no batch mode: always)

**C45 Sockets are closed at most once and never leak** — partial
* `C45_closed_once_partial` (pqc)
* `C45_successful_lives` (pqc)
* `C45_overwritten_leaks` (pqc)
* `C45_overwritten_leaks_tls` (p)
* `C45_descriptor_zero` (p)
* `C45_closes_minus_one` (p)

  False: a failed connection attempt leaves its socket open and the next one overwrites it (C45_overwritten_leaks), descriptor 0 is never closed, close(-1) after a failed socket(). Proved for every history and server: only open sockets are closed, each socket is closed as often as opened unless overwritten, and always when every mail was sent with success.

**C46 Batch mode reuses one connection** — partial
* `C46_batch_partial` (pqc)
* `C46_without_batch_partial` (pqc)
* `C46_second_connection` (p)
* `C46_no_quit` (p)
* `C46_not_its_own` (p)

  Batch of successful sends shares one connection and ends with QUIT; without batch each success has its own. Missing: runs that wrote to descriptor 0 or whose end mark was answered by code 0, and clients still connected after a refusal; refuted in those cases by C46_second_connection, C46_no_quit, C46_not_its_own.

**C47 A failed sendMail leaves the client ready for a fresh start** — partial
* `C47_fresh_start_partial` (pqc)
* `C47_old_transaction_reused` (pq)

  Proved for failures that are reported by the library itself; after a refusal by the server (e.g. 550) the old connection and the old transaction are reused (C47_old_transaction_reused).

**C48 Return values of sendMail can be told apart** — partial
* `C48_values_of_sendMail_partial` (pqc)
* `C48_undocumented_value` (p)
* `C48_kinds_collide` (p)

  false: 1 is returned when fcntl fails (C48_undocumented_value); that is the only exception (C48_values_of_sendMail_partial)

**C49 No server can make the client run into undefined behaviour** — partial
* `C49_causes_partial` (pqc)
* `C49_one_object_partial` (pqc)
* `C49_no_undefined_behaviour_partial` (pqc)
* `C49_constructed_messages` (pq)
* `C49_cpp_messages` (pq)
* `C49_long_reply` (p)
* `C49_every_long_read` (pq)
* `C49_no_mechanisms` (p)
* `C49_strange_reply` (p)
* `C49_high_descriptor` (p)
* `C49_long_address` (p)
* `C49_long_name` (p)

  C49_causes_partial: in every program over any number of objects and every world, undefined behaviour has one of eight listed causes; C49_no_undefined_behaviour_partial: none without them. The causes are real: C49_long_reply, C49_no_mechanisms, C49_strange_reply, C49_high_descriptor, C49_long_name, C49_long_address.

**C50 A live connection belongs to exactly one client object** — proved
* `C50_one_owner` (pqc)
* `C50_never_closed_twice` (pqc)
* `C50_copy` (pq)
* `C50_move` (pq)
* `C50_assign` (pq)
* `C50_move_assign` (pq)
* `C50_assignment_leaks` (p)
* `C50_copy_of_moved` (p)

  Every program over any number of client objects, with API calls against any server in between; assumes that the operating system hands out unused descriptors. Assignment onto a connected client loses its socket (C50_assignment_leaks), which the property does not exclude.

**C51 MAIL FROM fallback** — proved
* `C51_mail_from_fallback` (pqc)
* `C51_mail_from_order_always` (pqc)
* `C51_forms_differ` (pq)

**C52 A session is opened only over an established TCP connection** — proved
* `C52_session_needs_connection` (pq)
* `C52_large_port` (p)

**C53 A reply that arrives within the timeout is not lost** — partial
* `C53_tls_reply_in_time_partial` (pqc)
* `C53_greeting_in_time_partial` (pqc)
* `C53_reply_at_timeout_lost` (p)
* `C53_greeting_at_timeout_lost` (p)

  Proved for every reply that arrives before the waiting time reaches the timeout (greeting and TLS replies). Refuted at exactly the timeout: the data are read and dropped and the timeout code is returned. The raw reply loop is treated with C09/C10.

**C54 The client speaks in lock-step** — partial
* `C54_lock_step_partial` (pqc)
* `C54_reply_to_wrong_command` (p)

  Proved: no command before all earlier ones had something read after them or the timeout passed, for the whole life of a client. Refuted: a reply in two parts over TLS is attributed to the next command

**C55 Addresses, credentials and attachments give back all their memory** — partial
* `C55_all_given_back_partial` (pqc)
* `C55_content_id_lost` (p)

  Proved for programs that do not change the content id of an attachment; refuted with it (C55_content_id_lost).

**C56 Mail is only sent after the requested authentication succeeded** — partial
* `C56_mail_only_after_login_partial` (pqc)
* `C56_skipped_without_starttls` (p)
* `C56_zero_greeting` (p)

  Proved for every execution: a non-empty mail part starts with MAIL FROM on the channel where the opening ended with a complete exchange carrying exactly the credentials, answered 235. Missing because false: the opportunistic client without STARTTLS sends unauthenticated (refuted), replies that read as 0 (refuted); credentials too long or ambiguous for the protocol (C42).

**C57 No way back to clear text after STARTTLS** — partial
* `C57_no_downgrade_partial` (pqc)
* `C57_zero_reply` (p)

  Proved for every opportunistic client, message and environment, except when STARTTLS is answered by a text that reads as code 0 (refuted by C57_zero_reply) or the socket has number 0.

**C58 An interrupted mail is never finished** — partial
* `C58_never_truncated_partial` (pqc)
* `C58_zero_reply` (pq)

  Proved for all runs, except after a reply that reads as number 0 (refuted: C58_zero_reply), writes to descriptor 0, and short writes, which the code ignores.

**C59 Client objects behave as values** — partial
* `C59_client_values_partial` (pqc)
* `C59_sessions_partial` (pqc)
* `C59_new_buffer_noted` (pq)
* `C59_own_name` (p)
* `C59_own_credential` (p)

  Refinement of the heap program to plain values for every program that follows the rules of C59_client_values_partial, and, with the memory steps that sessions note, for every program whose clients run sessions against any environment. Missing because false: giving a client its own server name or credential reads deleted memory (C59_own_name, C59_own_credential).

**C60 Client objects give all their memory back** — partial
* `C60_exact` (pqc)
* `C60_nothing_left_partial` (pqc)
* `C60_sessions_exact` (pqc)
* `C60_assignment_leaks` (pq)
* `C60_ehlo_leaks` (pq)

  The number of blocks left when all clients are gone is counted exactly, for every heap program (C60_exact) and for every program with sessions (C60_sessions_exact). It is 0 without copy assignment and without an AUTH line inside a reply to EHLO (C60_nothing_left_partial). Missing because false: copy assignment loses log, response and credential (C60_assignment_leaks); parsing a reply with an AUTH line inside loses a block (C60_ehlo_leaks).

**C61 The dialogue of a call follows one script** — partial
* `C61_in_order` (pqc)
* `C61_nothing_skipped_partial` (pqc)
* `C61_zero_skips` (pq)

  Order proved for all runs. The claim that nothing is skipped is proved except for runs in which a reply reads as number 0, where it is refuted; credentials longer than a line or with NUL are excluded.

**C62 A reply is read on the channel of its command** — proved
* `C62_replies_on_channel` (pqc)
* `C62_every_call` (pqc)

  All clients, all sequences of calls, all environments.

**C64 Exactly the attached files are read, and only for a mail the server takes** — proved
* `C64_reads_exactly_the_attached_files` (pqc)
* `C64_success_reads_all` (pqc)
* `C64_no_file_before_agreement` (pqc)

  For every run: all or nothing, in order, after the server agreed; success means all.

**C63 An AUTH command names a mechanism the server offered on the same channel just before** — partial
* `C63_offered_partial` (pqc)
* `C63_plain_client` (pqc)
* `C63_forced_client` (pqc)
* `C63_other_channel` (pq)

  Proved for every call of sendMail of a client that has not switched to the base send commands, and for the whole life of plain and forced clients. Refuted for the opportunistic client after a session without STARTTLS: EHLO goes over TLS and AUTH in clear (C63_other_channel). 'Listed' means: after 250-AUTH or 250 AUTH in the text read, a space and the name.

**C65 Everything is sent to the configured server** — partial
* `C65_sent_to_configured_partial` (pqc)
* `C65_new_connection` (pq)
* `C65_old_server` (p)
* `C65_to_zero` (p)

  Every send of a life goes to a connection opened to the name and port configured at its opening and not closed since, or to descriptor 0; a new connection goes to the server configured at the call. Refuted with witnesses: after a failed write commands go to descriptor 0 (C65_to_zero); in batch mode a changed server name or port is ignored while the connection lives (C65_old_server).

**C66 Winsock is started before it is used and stopped as often as it was started (Windows)** — partial
* `C66_session_needs_connection` (pq)
* `C66_failed_start_is_balanced` (pq)
* `C66_never_too_many_stops` (pqc)
* `C66_running_while_connected_partial` (pqc)
* `C66_balanced_partial` (pqc)
* `C66_restart_leaks` (pq)
* `C66_assign_leaks` (pq)
* `C66_move_stops_winsock` (p)
* `C66_closes_after_stop` (p)
* `C66_null_log` (p)

  The order of the opening and 'never more stops than starts' hold for all programs. That Winsock runs while an object is connected is proved for programs without moves, the balance for programs without moves, assignments and refused sessions left open; the rest is refuted by concrete programs (leaks after restart and assignment, stop under a moved connection, close after stop, null log). The dialogue is replaced by an arbitrary end.

**C67 The TLS negotiation on Windows checks the certificate and closes what it opened** — partial
* `C67_zero_means_checked` (pqc)
* `C67_store_closed_partial` (pqc)
* `C67_store_left_open` (p)
* `C67_failure_closes` (pqc)

  The check of the certificate and the closed connection are proved for all executions. The store is closed exactly when the code is not -55 to -58; that it stays open then is shown by a run.

**C68 A mail does not depend on the mails before** — partial
* `C68_other_past_partial` (pq)
* `C68_new_process_partial` (pq)
* `C68_plain_new_process` (pq)
* `C68_no_residue_partial` (p)
* `C68_same_log_partial` (p)
* `C68_like_new` (pqc)
* `C68_after_rejected_login` (p)
* `C68_after_plain_session` (p)

  Proved for the plain and the forced client after any calls (C68_like_new), and for any two clients of any kind with the same settings and the same TLS objects. The later theorems drop the common history: two clients at rest with the same settings, after whatever different histories, do the same in worlds that answer alike from then on (C68_other_past_partial, C68_new_process_partial, C68_plain_new_process). False for the opportunistic client: a refused login leaves the old TLS connection behind, over which the next session says EHLO, and a session without STARTTLS leaves the flag of the base send commands set; both witnessed.

**C69 The communication log is a transcript of the session** — partial
* `C69_commands_shown_partial` (pqc)
* `C69_until_the_end_partial` (pqc)
* `C69_forged` (p)

  Every command is shown, for all lives of a client (C69_commands_shown_partial, C69_until_the_end_partial). The converse is false: replies are logged unescaped, so a server can write lines that look like commands (C69_forged).

**C70 The time a call waits is bounded by the message and the timeout** — proved
* `C70_waiting_is_bounded` (pqc)
* `C70_open_session` (pqc)
* `C70_ehlo_in_parts` (p)

  All runs. The EHLO parts cannot be left out: C70_ehlo_in_parts.

**C71 The communication log is a record of the whole conversation** — partial
* `C71_conversation_recorded_partial` (pqc)
* `C71_until_the_end_partial` (pqc)
* `C71_late` (p)

  Proved for all runs, with what is read when the timeout has fully elapsed left out: such text is read and discarded (C71_late). The converse is refuted by C69_forged.

**C72 When the server accepts everything, every mail is sent** — partial
* `C72_every_mail_is_sent_partial` (pqc)
* `C72_will_forward` (p)

  Proved for servers that use the one code the client expects (a recipient accepted with 251 makes sendMail return 251: C72_will_forward), whose replies arrive in one batch in clear and in one read over TLS (split replies are misread: C09_last_line_alone, C09_auth_line_lost), for names and numbers that fit the buffers (otherwise C49), and without setKeepUsingBaseSendCommands (which makes a secure client write in clear, C38).

**C73 Running out of memory leaves usable objects** — partial
* `C73_out_of_memory_partial` (pqc)
* `C73_assigned_then_destroyed` (p)
* `C73_set_then_destroyed` (p)
* `C73_constructor_loses` (p)

  Proved for every program that no longer touches an object whose copy assignment, or a credential whose setter, failed. Refuted: the destructor of such an object frees twice (C73_assigned_then_destroyed, C73_set_then_destroyed); a constructor that fails half way loses the blocks it had (C73_constructor_loses).

**C74 Messages give back all their memory** — partial
* `C74_exact` (pqc)
* `C74_all_given_back_partial` (pqc)
* `C74_empty_array_lost` (p)

  Proved for programs that construct no message with an array of no elements, with the number of blocks left in general (C74_exact); refuted otherwise (C74_empty_array_lost).

**C75 TLS connections are freed exactly once** — partial
* `C75_freed_partial` (pqc)
* `C75_successful_lives` (pqc)
* `C75_overwritten` (pqc)

  Proved: freed exactly once, or a further TLS connection was asked for later; and exactly once in every life whose sends all returned 0. Refuted in full: a connection left by a refused login is overwritten by the next attempt and never freed (C75_overwritten). SSL_CTX objects are only a flag of the model and are not counted.

**C76 The C++ clients do what the base clients do** — partial
* `C76_same_life_partial` (pq)
* `C76_secure_same_life` (pq)
* `C76_method_forgotten` (p)

  Proved: identical lives for both secure clients, and for cpp::SmtpClient with the recommended authentication method replaced by implicit. Refuted in full: cpp::SmtpClient drops that method (C76_method_forgotten).

**C77 No mail before the server said 220 and 250** — partial
* `C77_welcomed_partial` (pqc)
* `C77_zero_greeting` (p)

  Proved for every server whose replies never read as 0 during the opening. Refuted in full: a greeting 000 is taken for success of the whole opening and the mail follows without EHLO (C77_zero_greeting).

**C78 In clear only if the server did not offer STARTTLS** — partial
* `C78_clear_only_if_not_offered_partial` (pqc)
* `C78_after_refused_login` (p)
* `C78_offer_in_last_line` (p)
* `C78_after_plain_session` (p)
* `C78_zero_reply` (p)

  Proved for every client without a TLS connection left over and not set to the base send commands, unless a reply reads as 0; the offer looked for is 250-STARTTLS. The rest is refuted by runs: after a refused login the next mail goes out in clear on a connection without EHLO, after a session without the offer the client stays with clear text, an offer in the last line is not seen, and STARTTLS answered by 000.

**C79 Writing in blocking mode, reading in clear in non-blocking mode** — partial
* `C79_modes_partial` (pqc)
* `C79_refused` (p)
* `C79_refused_fresh` (pqc)
* `C79_zero` (pq)

  For all lives of a client, given that the operating system does not hand out descriptors in use. Missing: descriptor 0 and sockets whose mode the operating system refused to change; both refuted by concrete runs (the result of switching back is ignored).

**C80 No command on a connection that still owes a reply** — partial
* `C80_in_turn_partial` (pqc)
* `C80_zero` (p)
* `C80_after_end` (p)

  Proved for all lives of all clients: whatever is sent on a channel other than QUIT is sent when data was received there after every command sent there before. Missing because false: after a recipient without reply the remaining recipients are written to descriptor 0 without waiting for replies to each other (C80_zero); in clear, a reply followed by the end of the connection counts as a reply and the next command is sent on the closed connection (C80_after_end).

**C81 Sockets on Windows have one owner, are used only while open, and are closed** — partial
* `C81_one_holder_partial` (pqc)
* `C81_all_closed_partial` (pqc)
* `C81_refused_leaks` (pqc)
* `C81_assign_leaks` (pqc)
* `C81_left_open_leaks` (pqc)
* `C81_closes_minus_one` (p)

  one owner, use only while open and no double close hold for all programs (handle -1 after a failed socket excepted: it is shut down and closed); that every socket is closed is proved for programs without assignment, refused connections and sessions left unclosed, and refuted for each of these

**C82 A negative result of sendMail names the step that failed** — partial
* `C82_code_names_step_partial` (pqc)
* `C82_codes_never_returned` (pqc)
* `C82_garbled` (p)
* `C82_login_timeout` (p)
* `C82_address_header` (p)
* `C82_no_tls` (p)
* `C82_interrupted` (p)

  Proved for calls in which every reply read starts with a positive number. Refuted otherwise (an unintelligible reply is reported at once as a timeout, an unintelligible greeting as a failure to create the socket); the causes of -81, -93, -91 and -3 are wider than documented, each with a concrete run.

**C83 On Windows the opening reports the step that failed** — proved
* `C83_opening_reports` (pqc)
* `C83_code_names_step` (pqc)
* `C83_mode_reports` (pq)
* `C83_number_overwritten` (p)
* `C83_number_kept` (pqc)

  names and system texts without NUL byte (they are C strings); C83_number_overwritten shows the case in which the number of the first failure is lost

**C84 The dialogue is the same on Windows** — partial
* `C84_content_after_agreement_partial` (pqc)
* `C84_never_truncated_partial` (pqc)
* `C84_bcc_only_in_rcpt_partial` (pqc)
* `C84_files_partial` (pqc)
* `C84_opportunistic_public_partial` (pqc)
* `C84_no_downgrade_partial` (pqc)
* `C84_same_dialogue_partial` (pqc)
* `C84_transfer_partial` (pqc)
* `C84_each_mail_partial` (pqc)
* `C84_zero_means_delivered_partial` (pqc)
* `C84_forced_public_partial` (pqc)
* `C84_codes_partial` (pqc)
* `C84_header_left_out` (pq)
* `C84_session_left_open` (pq)
* `C84_posix_closes` (pq)
* `C84_opening_agrees` (pqc)
* `C84_whole_life_partial` (pqc)
* `C84_destructor_partial` (pqc)
* `C84_login_first_partial` (pqc)
* `C84_welcomed_partial` (pqc)
* `C84_receiver_gets_data_partial` (pqc)
* `C84_header_section_partial` (pqc)
* `C84_parts_arrive_partial` (pqc)
* `C84_line_lengths_partial` (pqc)
* `C84_in_order_partial` (pqc)
* `C84_command_lengths_partial` (pqc)
* `C84_lock_step_partial` (pqc)
* `C84_waiting_partial` (pqc)

  Proved when no line has 2 GiB or more; without this the statement is false (a header of that size is left out, a line of that size leaves the session open). With the destructor: what is sent and read is the same; the whole dialogue is when it finds an open session (otherwise the closing of the socket that a failed opening leaves can differ). From it follow C29, C30, C32, C34, C35, C36, C37, C38, C54, C56, C57, C58, C61, C64, C70, C77, C82, C93 and C94 on Windows.

**C85 The error number is that of the last failure** — partial
* `C85_plain` (pq)
* `C85_last` (pq)
* `C85_opening` (pqc)
* `C85_tls_partial` (pq)
* `C85_stale` (p)
* `C85_reading` (p)
* `C85_tls_late` (p)
* `C85_certificate` (p)

  Proved for clients without TLS (number of the last failing system call, for every run) and for the codes of the opening; for clients with TLS that the number is that of the last failing system call or one the TLS library gave later. Refuted with witnesses: the number is not reset by a call, failed reads and refused certificates leave none, and the TLS library is asked only after the session was closed.

**C86 Before DATA is agreed to, only the addresses of a message matter** — partial
* `C86_same_until_data_partial` (pqc)
* `C86_name_in_envelope` (p)
* `C86_not_agreed` (p)

  Proved with two further moments where the runs can part: a reply to DATA that reads as 0, and (when the senders' names differ) MAIL FROM refused with 501. For these the statement is false: C86_not_agreed, C86_name_in_envelope.

**C87 Running out of memory leaves usable clients** — partial
* `C87_clients_out_of_memory_partial` (pqc)
* `C87_plenty_of_memory` (pq)
* `C87_spoilt_for_good` (pqc)
* `C87_response_then_destroyed` (p)
* `C87_log_then_destroyed` (p)
* `C87_name_then_read` (p)
* `C87_credential_then_destroyed` (p)
* `C87_assigned_then_destroyed` (p)
* `C87_copy_loses` (p)

  Proved for every choice of failing allocations: a program that no longer uses a client whose assignment or setServerName failed, whose credential was to be replaced, or whose session failed while replacing the log or the last reply, is free of memory errors, other clients keep what they show, moves and destructors do not fail; a first log, first reply or first credential that fails changes nothing; with plenty of memory nothing fails. The rest is refuted: after a failed replacement of the log, the reply or the credential the destructor breaks the rules in every program (C87_spoilt_for_good), after a failed assignment or setServerName in concrete ones; a failed copy loses memory.

**C88 Running out of memory leaves usable messages** — partial
* `C88_messages_out_of_memory_partial` (pqc)
* `C88_plenty_of_memory` (pq)
* `C88_assigned_then_destroyed` (p)
* `C88_array_then_destroyed` (p)
* `C88_move_assignment_ends_program` (p)
* `C88_copy_loses` (p)

  Proved for programs that no longer use, not even destroy, a message whose assignment failed, with a failed move assignment ending the program. The rest is refuted: C88_assigned_then_destroyed, C88_array_then_destroyed, C88_move_assignment_ends_program, C88_copy_loses.

**C89 Before the login, user name and password do not matter** — proved
* `C89_same_until_login` (pqc)
* `C89_same_message` (pqc)

  For whole lives of a client and for a single message, in any environment; the credentials differ in user name and password only.

**C90 Accepting self-signed certificates relaxes nothing else** — proved
* `C90_relaxes_nothing_else` (p)
* `C90_other_verdicts` (p)

  For whole lives of a client, in any environment and from any state.

**C91 A longer timeout changes nothing unless the shorter one runs out** — proved
* `C91_same_until_timeout` (pqc)
* `C91_longer_timeout` (pqc)

  Whole life of a client on POSIX. For two timeouts of which one is 0 the first theorem says nothing (a wait of 0 seconds is always found); C91_longer_timeout needs T at least 1 for the same reason. The Windows code is not covered.

**C92 The communication log and the error number influence nothing** — proved
* `C92_write_only` (pq)

  Whole life of a client on POSIX.

**C93 What is sent is within the sizes a server must accept** — partial
* `C93_commands_partial` (pq)
* `C93_no_login_partial` (pq)
* `C93_text_partial` (pqc)
* `C93_constructor_accepts` (0)
* `C93_long_command` (pq)
* `C93_long_line` (pq)

  Commands: proved for addresses of at most 254 octets, a sender name of at most 240 and credentials of at most 9000. Lines of the message: proved when the header fields, the lines of the body and the names of attachments fit and no file has more than 747 bytes, unless a reply reads as number 0. Refuted for longer addresses, which the constructor accepts, and for longer files: an attachment is sent as one base64 line.

**C94 A mail program shows the sender, recipients and subject that were meant** — partial
* `C94_shown_as_meant_partial` (pqc)
* `C94_name_with_comma` (pqc)
* `C94_other_sender` (pqc)

  Proved for subjects and display names without CRLF (see C35) whose display names and addresses need no quoting. The rest is refuted: C94_name_with_comma (a display name with a comma is read as two recipients), C94_other_sender (a display name with angle brackets is read as another sender). Runs with the flaws of C29 (reply that reads as 0, writes to descriptor 0, short writes) are excepted.

**C95 A mail program shows the attachments as they were named** — partial
* `C95_files_shown_partial` (pqc)
* `C95_windows_partial` (pqc)
* `C95_quote_in_name` (pq)
* `C95_backslash_in_name` (pq)
* `C95_no_type` (pq)

  Proved for messages as in C36 (one-line texts, no line of the body begins like a delimiter, files below 4 GiB) and attachments whose name has no quote and no backslash and whose content id has no closing bracket. The rest is refuted: C95_quote_in_name (the name is cut and a second file name appears), C95_backslash_in_name (backslashes are lost). C95_no_type: an extension that is not in the table gives an empty type. Runs with the flaws of C29 are excepted.

**C96 Nothing but US-ASCII is sent to a server that did not agree to more** — partial
* `C96_seven_bit_partial` (pqc)
* `C96_windows_partial` (pqc)
* `C96_eight_bit_unasked` (pq)

  Proved for all messages of US-ASCII, with any files, paths, user names and passwords, in every run, on POSIX and on Windows (C96_windows_partial). Missing: other texts, for which the statement is refuted (C96_eight_bit_unasked).

**C97 CR and LF are only sent together** — partial
* `C97_line_ends_partial` (pqc)
* `C97_windows_partial` (pqc)
* `C97_lone_line_feed` (pqc)

  Proved for all messages in whose texts CR and LF occur only together, with any files, user names and passwords, for every command in every run and for the text of the message as one stream, on POSIX and on Windows (C97_windows_partial). Missing: other texts, for which the statement is refuted (C97_lone_line_feed), and the text in runs in which a reply reads as number 0.

## 6. Mutation tests

`seeded/LOG.jsonl` has one line per attempt: a definition of the model was edited like a realistic bug in a scratch copy and everything was
rebuilt. "theorems_failed" are the property theorems that are no longer checked: the proof of the theorem itself stopped working
("failed_directly"), or the proof of a lemma it uses did ("failed_through_a_lemma"; "lemmas_failed" names those lemmas, and the theorems are
found by replacing the broken proofs and listing which property theorems then depend on a gap). "theorems_tightened" are the theorems that
were added or made stronger afterwards.

What this does and does not show. A broken proof is not a refuted statement. A theorem in "failed_through_a_lemma" may still be true of the
edited model, and many are: an edit of the table of MIME types breaks a lemma that theorems on recipients share, though nothing about
recipients has changed. So the long lists overstate what an edit falsifies, and "the expected theorem failed" is weaker evidence than it looks
when the failure is only indirect, because a fragile proof can hide a statement that is too weak. A surviving theorem is the
reliable signal. Where the statement was in addition shown false of the edited model, the entry has a field "refuted".
