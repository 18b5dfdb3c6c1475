/-
The repository's own tests of the codecs, run on the model.

These are tests, not proofs of anything about all inputs: they compare the model with the answers that the authors of
the code expect of it, so that a misreading of the code in the model would show. Each example names the file and the
line in /repo of the test it transcribes; the expected objects were compared one by one with those in the tests.
-/
import Verif.Codec

set_option maxRecDepth 10000

namespace Imap.Conformance

section
attribute [local instance] Quirks.default

/-- What `kat_inverse` checks of a test case (imap-codec/src/testing.rs:53-84): the bytes decode to the remainder and
the object, and the bytes of the encoded object decode to the object again. -/
def Inverse (k : Codec) (input rem : Bytes) (m : k.Message) : Prop :=
  k.decode input = .ok rem m ∧ k.decode (dump (k.encode m)) = .ok [] m

/-- What the traces check of a line without an expected object (imap-codec/tests/trace.rs:60-102): it decodes
completely, and the bytes of the encoded object decode to the object again. -/
def RoundTrips (k : Codec) (input : Bytes) : Prop :=
  match k.decode input with
  | .ok [] m => k.decode (dump (k.encode m)) = .ok [] m
  | _ => False

/-- imap-codec/src/body.rs:678, case 1. -/
example : Inverse .response
    b!"* 3372220415 FETCH (BODYSTRUCTURE ((((((({0}\r\n {0}\r\n NIL NIL NIL {0}\r\n 0 \"FOO\" NIL NIL \"LOCATION\" 1337) \"mixed\") \"mixed\") \"mixed\") \"mixed\") \"mixed\") \"mixed\"))\r\n" b!""
    (.data (.fetch 3372220415 [.bodyStructure (.multi [.multi [.multi [.multi [.multi [.multi [.basic { parameterList := [], id := none, description := none, contentTransferEncoding := .literal { data := [], mode := .sync }, size := 0 } (.literal { data := [], mode := .sync }) (.literal { data := [], mode := .sync }) (some { md5 := some (.quoted b!"FOO"), tail := some { disposition := none, tail := some { language := [], tail := some { location := some (.quoted b!"LOCATION"), extensions := [.number 1337] } } } })] (.quoted b!"mixed") none] (.quoted b!"mixed") none] (.quoted b!"mixed") none] (.quoted b!"mixed") none] (.quoted b!"mixed") none] (.quoted b!"mixed") none)])) :=
  ⟨by with_unfolding_all rfl, by with_unfolding_all rfl⟩

/-- imap-codec/src/codec.rs:75, case 1. -/
example : Inverse .greeting
    b!"* OK ...\r\n" b!""
    ({ kind := .ok, code := none, text := b!"..." }) :=
  ⟨by with_unfolding_all rfl, by with_unfolding_all rfl⟩

/-- imap-codec/src/codec.rs:75, case 2. -/
example : Inverse .greeting
    b!"* ByE .\r\n???" b!"???"
    ({ kind := .bye, code := none, text := b!"." }) :=
  ⟨by with_unfolding_all rfl, by with_unfolding_all rfl⟩

/-- imap-codec/src/codec.rs:75, case 3. -/
example : Inverse .greeting
    b!"* preaUth x\r\n?" b!"?"
    ({ kind := .preAuth, code := none, text := b!"x" }) :=
  ⟨by with_unfolding_all rfl, by with_unfolding_all rfl⟩

/-- imap-codec/src/codec.rs:96, case 1. -/
example : Inverse .command
    b!"a nOOP\r\n" b!""
    ({ tag := b!"a", body := .noop }) :=
  ⟨by with_unfolding_all rfl, by with_unfolding_all rfl⟩

/-- imap-codec/src/codec.rs:96, case 2. -/
example : Inverse .command
    b!"a NooP\r\n???" b!"???"
    ({ tag := b!"a", body := .noop }) :=
  ⟨by with_unfolding_all rfl, by with_unfolding_all rfl⟩

/-- imap-codec/src/codec.rs:96, case 3. -/
example : Inverse .command
    b!"a SeLECT {5}\r\ninbox\r\n" b!""
    ({ tag := b!"a", body := .select .inbox [] }) :=
  ⟨by with_unfolding_all rfl, by with_unfolding_all rfl⟩

/-- imap-codec/src/codec.rs:96, case 4. -/
example : Inverse .command
    b!"a SElECT {5}\r\ninbox\r\nxxx" b!"xxx"
    ({ tag := b!"a", body := .select .inbox [] }) :=
  ⟨by with_unfolding_all rfl, by with_unfolding_all rfl⟩

/-- imap-codec/src/codec.rs:138, case 1. -/
example : Inverse .response
    b!"* SEARCH 1\r\n" b!""
    (.data (.search [1] none)) :=
  ⟨by with_unfolding_all rfl, by with_unfolding_all rfl⟩

/-- imap-codec/src/codec.rs:138, case 2. -/
example : Inverse .response
    b!"* SEARCH 1\r\n???" b!"???"
    (.data (.search [1] none)) :=
  ⟨by with_unfolding_all rfl, by with_unfolding_all rfl⟩

/-- imap-codec/src/codec.rs:138, case 3. -/
example : Inverse .response
    b!"* 1 FETCH (RFC822 {5}\r\nhello)\r\n" b!""
    (.data (.fetch 1 [.rfc822 (some (.literal { data := b!"hello", mode := .sync }))])) :=
  ⟨by with_unfolding_all rfl, by with_unfolding_all rfl⟩

/-- imap-codec/src/codec.rs:172, case 1. -/
example : Inverse .authenticateData
    b!"VGVzdA==\r\n" b!""
    (.continue_ b!"Test") :=
  ⟨by with_unfolding_all rfl, by with_unfolding_all rfl⟩

/-- imap-codec/src/codec.rs:172, case 2. -/
example : Inverse .authenticateData
    b!"AA==\r\n" b!""
    (.continue_ [0]) :=
  ⟨by with_unfolding_all rfl, by with_unfolding_all rfl⟩

/-- imap-codec/src/codec.rs:172, case 3. -/
example : Inverse .authenticateData
    b!"aQ==\r\n" b!""
    (.continue_ b!"i") :=
  ⟨by with_unfolding_all rfl, by with_unfolding_all rfl⟩

/-- imap-codec/src/codec.rs:172, case 4. -/
example : Inverse .authenticateData
    b!"*\r\n" b!""
    (.cancel) :=
  ⟨by with_unfolding_all rfl, by with_unfolding_all rfl⟩

/-- imap-codec/src/codec.rs:194, case 1. -/
example : Inverse .idleDone
    b!"done\r\n" b!""
    (()) :=
  ⟨by with_unfolding_all rfl, by with_unfolding_all rfl⟩

/-- imap-codec/src/codec.rs:194, case 2. -/
example : Inverse .idleDone
    b!"DONE\r\n" b!""
    (()) :=
  ⟨by with_unfolding_all rfl, by with_unfolding_all rfl⟩

/-- imap-codec/src/extensions/compress.rs:79, case 1. -/
example : Inverse .command
    b!"A COMPRESS DEFLATE\r\n" b!""
    ({ tag := b!"A", body := .compress }) :=
  ⟨by with_unfolding_all rfl, by with_unfolding_all rfl⟩

/-- imap-codec/src/extensions/compress.rs:79, case 2. -/
example : Inverse .command
    b!"A COMPRESS DEFLATE\r\n?" b!"?"
    ({ tag := b!"A", body := .compress }) :=
  ⟨by with_unfolding_all rfl, by with_unfolding_all rfl⟩

/-- imap-codec/src/extensions/enable.rs:96, case 1. -/
example : Inverse .command
    b!"A ENABLE UTF8=ONLY\r\n" b!""
    ({ tag := b!"A", body := .enable [.utf8Only] }) :=
  ⟨by with_unfolding_all rfl, by with_unfolding_all rfl⟩

/-- imap-codec/src/extensions/enable.rs:96, case 2. -/
example : Inverse .command
    b!"A ENABLE UTF8=ACCEPT\r\n?" b!"?"
    ({ tag := b!"A", body := .enable [.utf8Accept] }) :=
  ⟨by with_unfolding_all rfl, by with_unfolding_all rfl⟩

/-- imap-codec/src/extensions/enable.rs:96, case 3. -/
example : Inverse .command
    b!"A ENABLE FOO\r\n??" b!"??"
    ({ tag := b!"A", body := .enable [.other b!"FOO"] }) :=
  ⟨by with_unfolding_all rfl, by with_unfolding_all rfl⟩

/-- imap-codec/src/extensions/id.rs:115, case 1. -/
example : Inverse .command
    b!"A ID nil\r\n" b!""
    ({ tag := b!"A", body := .id none }) :=
  ⟨by with_unfolding_all rfl, by with_unfolding_all rfl⟩

/-- imap-codec/src/extensions/id.rs:115, case 2. -/
example : Inverse .command
    b!"A ID NIL\r\n" b!""
    ({ tag := b!"A", body := .id none }) :=
  ⟨by with_unfolding_all rfl, by with_unfolding_all rfl⟩

/-- imap-codec/src/extensions/id.rs:115, case 3. -/
example : Inverse .command
    b!"A ID ()\r\n" b!""
    ({ tag := b!"A", body := .id (some []) }) :=
  ⟨by with_unfolding_all rfl, by with_unfolding_all rfl⟩

/-- imap-codec/src/extensions/id.rs:115, case 4. -/
example : Inverse .command
    b!"A ID (\"\" \"\")\r\n" b!""
    ({ tag := b!"A", body := .id (some [(.quoted [], some (.quoted []))]) }) :=
  ⟨by with_unfolding_all rfl, by with_unfolding_all rfl⟩

/-- imap-codec/src/extensions/id.rs:115, case 5. -/
example : Inverse .command
    b!"A ID (\"name\" \"imap-codec\")\r\n" b!""
    ({ tag := b!"A", body := .id (some [(.quoted b!"name", some (.quoted b!"imap-codec"))]) }) :=
  ⟨by with_unfolding_all rfl, by with_unfolding_all rfl⟩

/-- imap-codec/src/extensions/id.rs:171, case 1. -/
example : Inverse .response
    b!"* ID nil\r\n" b!""
    (.data (.id_ none)) :=
  ⟨by with_unfolding_all rfl, by with_unfolding_all rfl⟩

/-- imap-codec/src/extensions/idle.rs:76, case 1. -/
example : Inverse .command
    b!"A IDLE\r\n" b!""
    ({ tag := b!"A", body := .idle }) :=
  ⟨by with_unfolding_all rfl, by with_unfolding_all rfl⟩

/-- imap-codec/src/extensions/idle.rs:76, case 2. -/
example : Inverse .command
    b!"A IDLE\r\n?" b!"?"
    ({ tag := b!"A", body := .idle }) :=
  ⟨by with_unfolding_all rfl, by with_unfolding_all rfl⟩

/-- imap-codec/src/extensions/literal.rs:13, case 1. -/
example : Inverse .command
    b!"A LOGIN {0}\r\n {1}\r\nA\r\n" b!""
    ({ tag := b!"A", body := .login (.string (.literal { data := [], mode := .sync })) (.string (.literal { data := b!"A", mode := .sync })) }) :=
  ⟨by with_unfolding_all rfl, by with_unfolding_all rfl⟩

/-- imap-codec/src/extensions/literal.rs:13, case 2. -/
example : Inverse .command
    b!"A LOGIN {1}\r\nA {2}\r\nAB\r\n?" b!"?"
    ({ tag := b!"A", body := .login (.string (.literal { data := b!"A", mode := .sync })) (.string (.literal { data := b!"AB", mode := .sync })) }) :=
  ⟨by with_unfolding_all rfl, by with_unfolding_all rfl⟩

/-- imap-codec/src/extensions/literal.rs:13, case 3. -/
example : Inverse .command
    b!"A LOGIN {0+}\r\n {1+}\r\nA\r\n??" b!"??"
    ({ tag := b!"A", body := .login (.string (.literal { data := [], mode := .nonSync })) (.string (.literal { data := b!"A", mode := .nonSync })) }) :=
  ⟨by with_unfolding_all rfl, by with_unfolding_all rfl⟩

/-- imap-codec/src/extensions/literal.rs:13, case 4. -/
example : Inverse .command
    b!"A LOGIN {1+}\r\nA {2+}\r\nAB\r\n???" b!"???"
    ({ tag := b!"A", body := .login (.string (.literal { data := b!"A", mode := .nonSync })) (.string (.literal { data := b!"AB", mode := .nonSync })) }) :=
  ⟨by with_unfolding_all rfl, by with_unfolding_all rfl⟩

/-- imap-codec/src/extensions/literal.rs:71, case 1. -/
example : Inverse .greeting
    b!"* OK [CAPABILITY LITERAL+] ...\r\n" b!""
    ({ kind := .ok, code := some (.capability [.literalPlus]), text := b!"..." }) :=
  ⟨by with_unfolding_all rfl, by with_unfolding_all rfl⟩

/-- imap-codec/src/extensions/literal.rs:71, case 2. -/
example : Inverse .greeting
    b!"* OK [CAPABILITY LITERAL-] ...\r\n?" b!"?"
    ({ kind := .ok, code := some (.capability [.literalMinus]), text := b!"..." }) :=
  ⟨by with_unfolding_all rfl, by with_unfolding_all rfl⟩

/-- imap-codec/src/extensions/metadata.rs:329, case 1. -/
example : Inverse .command
    b!"A SETMETADATA \"\" (/test nil)\r\n" b!""
    ({ tag := b!"A", body := .setMetadata (.other (.string (.quoted []))) [{ entry := .atom b!"/test", value := .nstring none }] }) :=
  ⟨by with_unfolding_all rfl, by with_unfolding_all rfl⟩

/-- imap-codec/src/extensions/metadata.rs:329, case 2. -/
example : Inverse .command
    b!"A SETMETADATA \"\" (/test \"test\")\r\n" b!""
    ({ tag := b!"A", body := .setMetadata (.other (.string (.quoted []))) [{ entry := .atom b!"/test", value := .nstring (some (.quoted b!"test")) }] }) :=
  ⟨by with_unfolding_all rfl, by with_unfolding_all rfl⟩

/-- imap-codec/src/extensions/metadata.rs:329, case 3. -/
example : Inverse .command
    [65, 32, 83, 69, 84, 77, 69, 84, 65, 68, 65, 84, 65, 32, 34, 34, 32, 40, 47, 116, 101, 115, 116, 32, 126, 123, 52, 43, 125, 13, 10, 116, 0, 115, 116, 41, 13, 10] b!""
    ({ tag := b!"A", body := .setMetadata (.other (.string (.quoted []))) [{ entry := .atom b!"/test", value := .literal8 { data := [116, 0, 115, 116], mode := .nonSync } }] }) :=
  ⟨by with_unfolding_all rfl, by with_unfolding_all rfl⟩

/-- imap-codec/src/extensions/metadata.rs:388, case 1. -/
example : Inverse .command
    b!"A GETMETADATA \"\" /test\r\n" b!""
    ({ tag := b!"A", body := .getMetadata [] (.other (.string (.quoted []))) [.atom b!"/test"] }) :=
  ⟨by with_unfolding_all rfl, by with_unfolding_all rfl⟩

/-- imap-codec/src/extensions/metadata.rs:388, case 2. -/
example : Inverse .command
    b!"A GETMETADATA INBOX /test\r\n" b!""
    ({ tag := b!"A", body := .getMetadata [] .inbox [.atom b!"/test"] }) :=
  ⟨by with_unfolding_all rfl, by with_unfolding_all rfl⟩

/-- imap-codec/src/extensions/metadata.rs:388, case 3. -/
example : Inverse .command
    b!"A GETMETADATA (MAXSIZE 0) INBOX /test\r\n" b!""
    ({ tag := b!"A", body := .getMetadata [.maxSize 0] .inbox [.atom b!"/test"] }) :=
  ⟨by with_unfolding_all rfl, by with_unfolding_all rfl⟩

/-- imap-codec/src/extensions/metadata.rs:388, case 4. -/
example : Inverse .command
    b!"A GETMETADATA (MAXSIZE 1337) INBOX /test\r\n" b!""
    ({ tag := b!"A", body := .getMetadata [.maxSize 1337] .inbox [.atom b!"/test"] }) :=
  ⟨by with_unfolding_all rfl, by with_unfolding_all rfl⟩

/-- imap-codec/src/extensions/metadata.rs:388, case 5. -/
example : Inverse .command
    b!"A GETMETADATA (DEPTH 0) INBOX /test\r\n" b!""
    ({ tag := b!"A", body := .getMetadata [.depthNull] .inbox [.atom b!"/test"] }) :=
  ⟨by with_unfolding_all rfl, by with_unfolding_all rfl⟩

/-- imap-codec/src/extensions/metadata.rs:388, case 6. -/
example : Inverse .command
    b!"A GETMETADATA (DEPTH 1) INBOX /test\r\n" b!""
    ({ tag := b!"A", body := .getMetadata [.depthOne] .inbox [.atom b!"/test"] }) :=
  ⟨by with_unfolding_all rfl, by with_unfolding_all rfl⟩

/-- imap-codec/src/extensions/metadata.rs:388, case 7. -/
example : Inverse .command
    b!"A GETMETADATA (DEPTH infinity) INBOX /test\r\n" b!""
    ({ tag := b!"A", body := .getMetadata [.depthInfinity] .inbox [.atom b!"/test"] }) :=
  ⟨by with_unfolding_all rfl, by with_unfolding_all rfl⟩

/-- imap-codec/src/extensions/metadata.rs:499, case 1. -/
example : Inverse .response
    b!"* metadata INBOX /test /xxx\r\n" b!""
    (.data (.metadata .inbox (.withoutValues [.atom b!"/test", .atom b!"/xxx"]))) :=
  ⟨by with_unfolding_all rfl, by with_unfolding_all rfl⟩

/-- imap-codec/src/extensions/metadata.rs:499, case 2. -/
example : Inverse .response
    b!"* metadata INBOX (/test {4}\r\nABCD)\r\n" b!""
    (.data (.metadata .inbox (.withValues [{ entry := .atom b!"/test", value := .nstring (some (.literal { data := b!"ABCD", mode := .sync })) }]))) :=
  ⟨by with_unfolding_all rfl, by with_unfolding_all rfl⟩

/-- imap-codec/src/extensions/metadata.rs:535, case 1. -/
example : Inverse .response
    b!"* OK [metadata longentries 0] ...\r\n" b!""
    (.status (.untagged .ok (some (.metadata (.longEntries 0))) b!"...")) :=
  ⟨by with_unfolding_all rfl, by with_unfolding_all rfl⟩

/-- imap-codec/src/extensions/metadata.rs:535, case 2. -/
example : Inverse .response
    b!"* OK [metadata longentries 4294967295] ...\r\n" b!""
    (.status (.untagged .ok (some (.metadata (.longEntries 4294967295))) b!"...")) :=
  ⟨by with_unfolding_all rfl, by with_unfolding_all rfl⟩

/-- imap-codec/src/extensions/metadata.rs:535, case 3. -/
example : Inverse .response
    b!"* OK [metadatA maxSIZE 0] ...\r\n" b!""
    (.status (.untagged .ok (some (.metadata (.maxSize 0))) b!"...")) :=
  ⟨by with_unfolding_all rfl, by with_unfolding_all rfl⟩

/-- imap-codec/src/extensions/metadata.rs:535, case 4. -/
example : Inverse .response
    b!"* OK [metadata maxSizE 4294967295] ...\r\n" b!""
    (.status (.untagged .ok (some (.metadata (.maxSize 4294967295))) b!"...")) :=
  ⟨by with_unfolding_all rfl, by with_unfolding_all rfl⟩

/-- imap-codec/src/extensions/metadata.rs:535, case 5. -/
example : Inverse .response
    b!"* OK [metadata toOmaNy] ...\r\n" b!""
    (.status (.untagged .ok (some (.metadata .tooMany)) b!"...")) :=
  ⟨by with_unfolding_all rfl, by with_unfolding_all rfl⟩

/-- imap-codec/src/extensions/metadata.rs:535, case 6. -/
example : Inverse .response
    b!"* OK [mEtadata noPRIvaTE] ...\r\n" b!""
    (.status (.untagged .ok (some (.metadata .noPrivate)) b!"...")) :=
  ⟨by with_unfolding_all rfl, by with_unfolding_all rfl⟩

/-- imap-codec/src/extensions/move.rs:35, case 1. -/
example : Inverse .command
    b!"A MOVE 1 INBOX\r\n" b!""
    ({ tag := b!"A", body := .move [.single (.value 1)] .inbox false }) :=
  ⟨by with_unfolding_all rfl, by with_unfolding_all rfl⟩

/-- imap-codec/src/extensions/move.rs:35, case 2. -/
example : Inverse .command
    b!"A UID MOVE 1 INBOX\r\n?" b!"?"
    ({ tag := b!"A", body := .move [.single (.value 1)] .inbox true }) :=
  ⟨by with_unfolding_all rfl, by with_unfolding_all rfl⟩

/-- imap-codec/src/extensions/move.rs:35, case 3. -/
example : Inverse .command
    b!"A MOVE 1:* test\r\n??" b!"??"
    ({ tag := b!"A", body := .move [.range (.value 1) .asterisk] (.other (.atom b!"test")) false }) :=
  ⟨by with_unfolding_all rfl, by with_unfolding_all rfl⟩

/-- imap-codec/src/extensions/quota.rs:258, case 1. -/
example : Inverse .command
    b!"A GETQUOTA INBOX\r\n" b!""
    ({ tag := b!"A", body := .getQuota (.atom b!"INBOX") }) :=
  ⟨by with_unfolding_all rfl, by with_unfolding_all rfl⟩

/-- imap-codec/src/extensions/quota.rs:258, case 2. -/
example : Inverse .command
    b!"A GETQUOTA \"\"\r\n?" b!"?"
    ({ tag := b!"A", body := .getQuota (.string (.quoted [])) }) :=
  ⟨by with_unfolding_all rfl, by with_unfolding_all rfl⟩

/-- imap-codec/src/extensions/quota.rs:258, case 3. -/
example : Inverse .command
    b!"A003 GETQUOTA \"\"\r\n" b!""
    ({ tag := b!"A003", body := .getQuota (.string (.quoted [])) }) :=
  ⟨by with_unfolding_all rfl, by with_unfolding_all rfl⟩

/-- imap-codec/src/extensions/quota.rs:258, case 4. -/
example : Inverse .command
    b!"G0001 GETQUOTA \"!partition/sda4\"\r\n" b!""
    ({ tag := b!"G0001", body := .getQuota (.string (.quoted b!"!partition/sda4")) }) :=
  ⟨by with_unfolding_all rfl, by with_unfolding_all rfl⟩

/-- imap-codec/src/extensions/quota.rs:258, case 5. -/
example : Inverse .command
    b!"S0000 GETQUOTA \"#user/alice\"\r\n" b!""
    ({ tag := b!"S0000", body := .getQuota (.string (.quoted b!"#user/alice")) }) :=
  ⟨by with_unfolding_all rfl, by with_unfolding_all rfl⟩

/-- imap-codec/src/extensions/quota.rs:297, case 1. -/
example : Inverse .command
    b!"A003 GETQUOTAROOT INBOX\r\n" b!""
    ({ tag := b!"A003", body := .getQuotaRoot .inbox }) :=
  ⟨by with_unfolding_all rfl, by with_unfolding_all rfl⟩

/-- imap-codec/src/extensions/quota.rs:297, case 2. -/
example : Inverse .command
    b!"A GETQUOTAROOT MAILBOX\r\n??" b!"??"
    ({ tag := b!"A", body := .getQuotaRoot (.other (.atom b!"MAILBOX")) }) :=
  ⟨by with_unfolding_all rfl, by with_unfolding_all rfl⟩

/-- imap-codec/src/extensions/quota.rs:297, case 3. -/
example : Inverse .command
    b!"G0002 GETQUOTAROOT INBOX\r\n" b!""
    ({ tag := b!"G0002", body := .getQuotaRoot .inbox }) :=
  ⟨by with_unfolding_all rfl, by with_unfolding_all rfl⟩

/-- imap-codec/src/extensions/quota.rs:324, case 1. -/
example : Inverse .command
    b!"A SETQUOTA INBOX ()\r\n" b!""
    ({ tag := b!"A", body := .setQuota (.atom b!"INBOX") [] }) :=
  ⟨by with_unfolding_all rfl, by with_unfolding_all rfl⟩

/-- imap-codec/src/extensions/quota.rs:324, case 2. -/
example : Inverse .command
    b!"A SETQUOTA INBOX (STORAGE 256)\r\n" b!""
    ({ tag := b!"A", body := .setQuota (.atom b!"INBOX") [{ resource := .storage, limit := 256 }] }) :=
  ⟨by with_unfolding_all rfl, by with_unfolding_all rfl⟩

/-- imap-codec/src/extensions/quota.rs:324, case 3. -/
example : Inverse .command
    b!"A SETQUOTA INBOX (STORAGE 0 MESSAGE 512 MAILBOX 512 ANNOTATION-STORAGE 123 Foo 18446744073709551615)\r\n" b!""
    ({ tag := b!"A", body := .setQuota (.atom b!"INBOX") [{ resource := .storage, limit := 0 }, { resource := .message, limit := 512 }, { resource := .mailbox, limit := 512 }, { resource := .annotationStorage, limit := 123 }, { resource := .other b!"Foo", limit := 18446744073709551615 }] }) :=
  ⟨by with_unfolding_all rfl, by with_unfolding_all rfl⟩

/-- imap-codec/src/extensions/quota.rs:324, case 4. -/
example : Inverse .command
    b!"S0001 SETQUOTA \"#user/alice\" (STORAGE 510)\r\n" b!""
    ({ tag := b!"S0001", body := .setQuota (.string (.quoted b!"#user/alice")) [{ resource := .storage, limit := 510 }] }) :=
  ⟨by with_unfolding_all rfl, by with_unfolding_all rfl⟩

/-- imap-codec/src/extensions/quota.rs:324, case 5. -/
example : Inverse .command
    b!"S0002 SETQUOTA \"!partition/sda4\" (STORAGE 99999999)\r\n" b!""
    ({ tag := b!"S0002", body := .setQuota (.string (.quoted b!"!partition/sda4")) [{ resource := .storage, limit := 99999999 }] }) :=
  ⟨by with_unfolding_all rfl, by with_unfolding_all rfl⟩

/-- imap-codec/src/extensions/quota.rs:324, case 6. -/
example : Inverse .command
    b!"A001 SETQUOTA \"\" (STORAGE 512)\r\n" b!""
    ({ tag := b!"A001", body := .setQuota (.string (.quoted [])) [{ resource := .storage, limit := 512 }] }) :=
  ⟨by with_unfolding_all rfl, by with_unfolding_all rfl⟩

/-- imap-codec/src/extensions/quota.rs:407, case 1. -/
example : Inverse .command
    b!"S0003 STATUS INBOX (MESSAGES DELETED DELETED-STORAGE)\r\n" b!""
    ({ tag := b!"S0003", body := .status .inbox [.messages, .deleted, .deletedStorage] }) :=
  ⟨by with_unfolding_all rfl, by with_unfolding_all rfl⟩

/-- imap-codec/src/extensions/quota.rs:426, case 1. -/
example : Inverse .response
    b!"* QUOTA INBOX (MESSAGE 1024 2048)\r\n" b!""
    (.data (.quota (.atom b!"INBOX") [{ resource := .message, usage := 1024, limit := 2048 }])) :=
  ⟨by with_unfolding_all rfl, by with_unfolding_all rfl⟩

/-- imap-codec/src/extensions/quota.rs:426, case 2. -/
example : Inverse .response
    b!"* QUOTAROOT INBOX\r\n" b!""
    (.data (.quotaRoot .inbox [])) :=
  ⟨by with_unfolding_all rfl, by with_unfolding_all rfl⟩

/-- imap-codec/src/extensions/quota.rs:426, case 3. -/
example : Inverse .response
    b!"* QUOTAROOT INBOX ROOT1 ROOT2\r\n" b!""
    (.data (.quotaRoot .inbox [.atom b!"ROOT1", .atom b!"ROOT2"])) :=
  ⟨by with_unfolding_all rfl, by with_unfolding_all rfl⟩

/-- imap-codec/src/extensions/quota.rs:426, case 4. -/
example : Inverse .response
    b!"* CAPABILITY QUOTA QUOTA=RES-STORAGE\r\n" b!""
    (.data (.capability [.quota, .quotaRes .storage])) :=
  ⟨by with_unfolding_all rfl, by with_unfolding_all rfl⟩

/-- imap-codec/src/extensions/quota.rs:426, case 5. -/
example : Inverse .response
    b!"* CAPABILITY QUOTA QUOTA=RES-STORAGE QUOTA=RES-MESSAGE\r\n" b!""
    (.data (.capability [.quota, .quotaRes .storage, .quotaRes .message])) :=
  ⟨by with_unfolding_all rfl, by with_unfolding_all rfl⟩

/-- imap-codec/src/extensions/quota.rs:426, case 6. -/
example : Inverse .response
    b!"* CAPABILITY QUOTA QUOTASET QUOTA=RES-STORAGE QUOTA=RES-MESSAGE\r\n" b!""
    (.data (.capability [.quota, .quotaSet, .quotaRes .storage, .quotaRes .message])) :=
  ⟨by with_unfolding_all rfl, by with_unfolding_all rfl⟩

/-- imap-codec/src/extensions/quota.rs:426, case 7. -/
example : Inverse .response
    b!"* QUOTA \"!partition/sda4\" (STORAGE 104 10923847)\r\n" b!""
    (.data (.quota (.string (.quoted b!"!partition/sda4")) [{ resource := .storage, usage := 104, limit := 10923847 }])) :=
  ⟨by with_unfolding_all rfl, by with_unfolding_all rfl⟩

/-- imap-codec/src/extensions/quota.rs:426, case 8. -/
example : Inverse .response
    b!"* QUOTA \"\" (STORAGE 10 512)\r\n" b!""
    (.data (.quota (.string (.quoted [])) [{ resource := .storage, usage := 10, limit := 512 }])) :=
  ⟨by with_unfolding_all rfl, by with_unfolding_all rfl⟩

/-- imap-codec/src/extensions/quota.rs:426, case 9. -/
example : Inverse .response
    b!"* QUOTA \"#user/alice\" (MESSAGE 42 1000)\r\n" b!""
    (.data (.quota (.string (.quoted b!"#user/alice")) [{ resource := .message, usage := 42, limit := 1000 }])) :=
  ⟨by with_unfolding_all rfl, by with_unfolding_all rfl⟩

/-- imap-codec/src/extensions/quota.rs:426, case 10. -/
example : Inverse .response
    b!"* QUOTA \"#user/alice\" (STORAGE 54 111 MESSAGE 42 1000)\r\n" b!""
    (.data (.quota (.string (.quoted b!"#user/alice")) [{ resource := .storage, usage := 54, limit := 111 }, { resource := .message, usage := 42, limit := 1000 }])) :=
  ⟨by with_unfolding_all rfl, by with_unfolding_all rfl⟩

/-- imap-codec/src/extensions/quota.rs:426, case 11. -/
example : Inverse .response
    b!"* QUOTA \"#user/alice\" (STORAGE 54 111 MESSAGE 42  1000)\r\n" b!""
    (.data (.quota (.string (.quoted b!"#user/alice")) [{ resource := .storage, usage := 54, limit := 111 }, { resource := .message, usage := 42, limit := 1000 }])) :=
  ⟨by with_unfolding_all rfl, by with_unfolding_all rfl⟩

/-- imap-codec/src/extensions/quota.rs:426, case 12. -/
example : Inverse .response
    b!"* QUOTA \"#user/alice\" (STORAGE 58 512)\r\n" b!""
    (.data (.quota (.string (.quoted b!"#user/alice")) [{ resource := .storage, usage := 58, limit := 512 }])) :=
  ⟨by with_unfolding_all rfl, by with_unfolding_all rfl⟩

/-- imap-codec/src/extensions/quota.rs:426, case 13. -/
example : Inverse .response
    b!"* QUOTAROOT INBOX \"\"\r\n" b!""
    (.data (.quotaRoot .inbox [.string (.quoted [])])) :=
  ⟨by with_unfolding_all rfl, by with_unfolding_all rfl⟩

/-- imap-codec/src/extensions/quota.rs:426, case 14. -/
example : Inverse .response
    b!"* QUOTAROOT comp.mail.mime\r\n" b!""
    (.data (.quotaRoot (.other (.atom b!"comp.mail.mime")) [])) :=
  ⟨by with_unfolding_all rfl, by with_unfolding_all rfl⟩

/-- imap-codec/src/extensions/quota.rs:426, case 15. -/
example : Inverse .response
    b!"* QUOTAROOT INBOX \"#user/alice\" \"!partition/sda4\"\r\n" b!""
    (.data (.quotaRoot .inbox [.string (.quoted b!"#user/alice"), .string (.quoted b!"!partition/sda4")])) :=
  ⟨by with_unfolding_all rfl, by with_unfolding_all rfl⟩

/-- imap-codec/src/extensions/quota.rs:426, case 16. -/
example : Inverse .response
    b!"* STATUS INBOX (MESSAGES 12 DELETED 4 DELETED-STORAGE 8)\r\n" b!""
    (.data (.status .inbox [.messages 12, .deleted 4, .deletedStorage 8])) :=
  ⟨by with_unfolding_all rfl, by with_unfolding_all rfl⟩

/-- imap-codec/src/extensions/quota.rs:426, case 17. -/
example : Inverse .response
    b!"* NO [OVERQUOTA] Soft quota has been exceeded\r\n" b!""
    (.status (.untagged .no (some .overQuota) b!"Soft quota has been exceeded")) :=
  ⟨by with_unfolding_all rfl, by with_unfolding_all rfl⟩

/-- imap-codec/src/extensions/quota.rs:426, case 18. -/
example : Inverse .response
    b!"A003 NO [OVERQUOTA] APPEND Failed\r\n" b!""
    (.status (.tagged b!"A003" .no (some .overQuota) b!"APPEND Failed")) :=
  ⟨by with_unfolding_all rfl, by with_unfolding_all rfl⟩

/-- imap-codec/src/extensions/uidplus.rs:132, case 1. -/
example : Inverse .command
    b!"A UID EXPUNGE 1\r\n?" b!"?"
    ({ tag := b!"A", body := .expungeUid [.single (.value 1)] }) :=
  ⟨by with_unfolding_all rfl, by with_unfolding_all rfl⟩

/-- imap-codec/src/extensions/uidplus.rs:132, case 2. -/
example : Inverse .command
    b!"A UID EXPUNGE *\r\n?" b!"?"
    ({ tag := b!"A", body := .expungeUid [.single .asterisk] }) :=
  ⟨by with_unfolding_all rfl, by with_unfolding_all rfl⟩

/-- imap-codec/src/extensions/uidplus.rs:132, case 3. -/
example : Inverse .command
    b!"A UID EXPUNGE 1:1337\r\n?" b!"?"
    ({ tag := b!"A", body := .expungeUid [.range (.value 1) (.value 1337)] }) :=
  ⟨by with_unfolding_all rfl, by with_unfolding_all rfl⟩

/-- imap-codec/src/extensions/uidplus.rs:171, case 1. -/
example : Inverse .response
    b!"* OK [UIDNOTSTICKY] ...\r\n???" b!"???"
    (.status (.untagged .ok (some .uidNotSticky) b!"...")) :=
  ⟨by with_unfolding_all rfl, by with_unfolding_all rfl⟩

/-- imap-codec/src/extensions/uidplus.rs:171, case 2. -/
example : Inverse .response
    b!"* OK [APPENDUID 12345 1337] ...\r\n???" b!"???"
    (.status (.untagged .ok (some (.appendUid 12345 1337)) b!"...")) :=
  ⟨by with_unfolding_all rfl, by with_unfolding_all rfl⟩

/-- imap-codec/src/extensions/uidplus.rs:171, case 3. -/
example : Inverse .response
    b!"* OK [COPYUID 12345 1001:1005 1:5] ...\r\n???" b!"???"
    (.status (.untagged .ok (some (.copyUid 12345 [.range 1001 1005] [.range 1 5])) b!"...")) :=
  ⟨by with_unfolding_all rfl, by with_unfolding_all rfl⟩

/-- imap-codec/src/extensions/unselect.rs:9, case 1. -/
example : Inverse .command
    b!"A UNSELECT\r\n" b!""
    ({ tag := b!"A", body := .unselect }) :=
  ⟨by with_unfolding_all rfl, by with_unfolding_all rfl⟩

/-- imap-codec/src/response.rs:473, case 1. -/
example : Inverse .greeting
    b!"* OK [badcharset] ...\r\n" b!""
    ({ kind := .ok, code := some (.badCharset []), text := b!"..." }) :=
  ⟨by with_unfolding_all rfl, by with_unfolding_all rfl⟩

/-- imap-codec/src/response.rs:473, case 2. -/
example : Inverse .greeting
    b!"* OK [UnSEEN 12345] ...\r\naaa" b!"aaa"
    ({ kind := .ok, code := some (.unseen 12345), text := b!"..." }) :=
  ⟨by with_unfolding_all rfl, by with_unfolding_all rfl⟩

/-- imap-codec/src/response.rs:473, case 3. -/
example : Inverse .greeting
    b!"* OK [unseen 12345]  \r\n " b!" "
    ({ kind := .ok, code := some (.unseen 12345), text := b!" " }) :=
  ⟨by with_unfolding_all rfl, by with_unfolding_all rfl⟩

/-- imap-codec/src/response.rs:473, case 4. -/
example : Inverse .greeting
    b!"* PREAUTH [ALERT] hello\r\n" b!""
    ({ kind := .preAuth, code := some .alert, text := b!"hello" }) :=
  ⟨by with_unfolding_all rfl, by with_unfolding_all rfl⟩

/-- imap-codec/src/response.rs:507, case 1. -/
example : Inverse .response
    b!"* CAPABILITY IMAP4REV1\r\n" b!""
    (.data (.capability [.imap4Rev1])) :=
  ⟨by with_unfolding_all rfl, by with_unfolding_all rfl⟩

/-- imap-codec/src/response.rs:507, case 2. -/
example : Inverse .response
    b!"* LIST (\\Noselect) \"/\" bbb\r\n" b!""
    (.data (.list [.noselect] (some 47) (.other (.atom b!"bbb")))) :=
  ⟨by with_unfolding_all rfl, by with_unfolding_all rfl⟩

/-- imap-codec/src/response.rs:507, case 3. -/
example : Inverse .response
    b!"* SEARCH 1 2 3 42\r\n" b!""
    (.data (.search [1, 2, 3, 42] none)) :=
  ⟨by with_unfolding_all rfl, by with_unfolding_all rfl⟩

/-- imap-codec/src/response.rs:507, case 4. -/
example : Inverse .response
    b!"* 42 EXISTS\r\n" b!""
    (.data (.exists_ 42)) :=
  ⟨by with_unfolding_all rfl, by with_unfolding_all rfl⟩

/-- imap-codec/src/response.rs:507, case 5. -/
example : Inverse .response
    b!"* 12345 RECENT\r\n" b!""
    (.data (.recent 12345)) :=
  ⟨by with_unfolding_all rfl, by with_unfolding_all rfl⟩

/-- imap-codec/src/response.rs:507, case 6. -/
example : Inverse .response
    b!"* 123 EXPUNGE\r\n" b!""
    (.data (.expunge 123)) :=
  ⟨by with_unfolding_all rfl, by with_unfolding_all rfl⟩

/-- imap-codec/src/response.rs:553, case 1. -/
example : Inverse .response
    b!"* VANISHED 1\r\n" b!""
    (.data (.vanished false [.single (.value 1)])) :=
  ⟨by with_unfolding_all rfl, by with_unfolding_all rfl⟩

/-- imap-codec/src/response.rs:553, case 2. -/
example : Inverse .response
    b!"* VANISHED 1:5,7\r\n" b!""
    (.data (.vanished false [.range (.value 1) (.value 5), .single (.value 7)])) :=
  ⟨by with_unfolding_all rfl, by with_unfolding_all rfl⟩

/-- imap-codec/src/response.rs:553, case 3. -/
example : Inverse .response
    b!"* VANISHED (EARLIER) 1:5,7,9:11\r\n" b!""
    (.data (.vanished true [.range (.value 1) (.value 5), .single (.value 7), .range (.value 9) (.value 11)])) :=
  ⟨by with_unfolding_all rfl, by with_unfolding_all rfl⟩

/-- imap-codec/src/response.rs:591, case 1. -/
example : Inverse .response
    b!"A1 OK [ALERT] hello\r\n" b!""
    (.status (.tagged b!"A1" .ok (some .alert) b!"hello")) :=
  ⟨by with_unfolding_all rfl, by with_unfolding_all rfl⟩

/-- imap-codec/src/response.rs:591, case 2. -/
example : Inverse .response
    b!"A1 NO [ALERT] hello\r\n" b!""
    (.status (.tagged b!"A1" .no (some .alert) b!"hello")) :=
  ⟨by with_unfolding_all rfl, by with_unfolding_all rfl⟩

/-- imap-codec/src/response.rs:591, case 3. -/
example : Inverse .response
    b!"A1 BAD [ALERT] hello\r\n" b!""
    (.status (.tagged b!"A1" .bad (some .alert) b!"hello")) :=
  ⟨by with_unfolding_all rfl, by with_unfolding_all rfl⟩

/-- imap-codec/src/response.rs:591, case 4. -/
example : Inverse .response
    b!"A1 OK hello\r\n" b!""
    (.status (.tagged b!"A1" .ok none b!"hello")) :=
  ⟨by with_unfolding_all rfl, by with_unfolding_all rfl⟩

/-- imap-codec/src/response.rs:591, case 5. -/
example : Inverse .response
    b!"A1 NO hello\r\n" b!""
    (.status (.tagged b!"A1" .no none b!"hello")) :=
  ⟨by with_unfolding_all rfl, by with_unfolding_all rfl⟩

/-- imap-codec/src/response.rs:591, case 6. -/
example : Inverse .response
    b!"A1 BAD hello\r\n" b!""
    (.status (.tagged b!"A1" .bad none b!"hello")) :=
  ⟨by with_unfolding_all rfl, by with_unfolding_all rfl⟩

/-- imap-codec/src/response.rs:591, case 7. -/
example : Inverse .response
    b!"* OK [ALERT] hello\r\n" b!""
    (.status (.untagged .ok (some .alert) b!"hello")) :=
  ⟨by with_unfolding_all rfl, by with_unfolding_all rfl⟩

/-- imap-codec/src/response.rs:591, case 8. -/
example : Inverse .response
    b!"* NO [ALERT] hello\r\n" b!""
    (.status (.untagged .no (some .alert) b!"hello")) :=
  ⟨by with_unfolding_all rfl, by with_unfolding_all rfl⟩

/-- imap-codec/src/response.rs:591, case 9. -/
example : Inverse .response
    b!"* BAD [ALERT] hello\r\n" b!""
    (.status (.untagged .bad (some .alert) b!"hello")) :=
  ⟨by with_unfolding_all rfl, by with_unfolding_all rfl⟩

/-- imap-codec/src/response.rs:591, case 10. -/
example : Inverse .response
    b!"* OK hello\r\n" b!""
    (.status (.untagged .ok none b!"hello")) :=
  ⟨by with_unfolding_all rfl, by with_unfolding_all rfl⟩

/-- imap-codec/src/response.rs:591, case 11. -/
example : Inverse .response
    b!"* NO hello\r\n" b!""
    (.status (.untagged .no none b!"hello")) :=
  ⟨by with_unfolding_all rfl, by with_unfolding_all rfl⟩

/-- imap-codec/src/response.rs:591, case 12. -/
example : Inverse .response
    b!"* BAD hello\r\n" b!""
    (.status (.untagged .bad none b!"hello")) :=
  ⟨by with_unfolding_all rfl, by with_unfolding_all rfl⟩

/-- imap-codec/src/response.rs:591, case 13. -/
example : Inverse .response
    b!"* BYE [ALERT] hello\r\n" b!""
    (.status (.bye (some .alert) b!"hello")) :=
  ⟨by with_unfolding_all rfl, by with_unfolding_all rfl⟩

/-- imap-codec/src/response.rs:694, case 1. -/
example : Inverse .response
    [43, 32, 1, 13, 10] b!""
    (.continue_ (.basic none [1])) :=
  ⟨by with_unfolding_all rfl, by with_unfolding_all rfl⟩

/-- imap-codec/src/response.rs:694, case 2. -/
example : Inverse .response
    b!"+ hello\r\n" b!""
    (.continue_ (.basic none b!"hello")) :=
  ⟨by with_unfolding_all rfl, by with_unfolding_all rfl⟩

/-- imap-codec/src/response.rs:694, case 3. -/
example : Inverse .response
    b!"+ [READ-WRITE] hello\r\n" b!""
    (.continue_ (.basic (some .readWrite) b!"hello")) :=
  ⟨by with_unfolding_all rfl, by with_unfolding_all rfl⟩

/-- imap-codec/tests/trace.rs:140. -/
example : Inverse .command
    b!"abcd CAPABILITY\r\n" []
    ({ tag := b!"abcd", body := .capability }) :=
  ⟨by with_unfolding_all rfl, by with_unfolding_all rfl⟩

/-- imap-codec/tests/trace.rs:144. -/
example : Inverse .response
    b!"* CAPABILITY IMAP4rev1 STARTTLS AUTH=GSSAPI LOGINDISABLED\r\n" []
    (.data (.capability [.imap4Rev1, .startTls, .auth (.other b!"GSSAPI"), .loginDisabled])) :=
  ⟨by with_unfolding_all rfl, by with_unfolding_all rfl⟩

/-- imap-codec/tests/trace.rs:160. -/
example : Inverse .response
    b!"abcd OK CAPABILITY completed\r\n" []
    (.status (.tagged b!"abcd" .ok none b!"CAPABILITY completed")) :=
  ⟨by with_unfolding_all rfl, by with_unfolding_all rfl⟩

/-- imap-codec/tests/trace.rs:173. -/
example : Inverse .command
    b!"efgh STARTTLS\r\n" []
    ({ tag := b!"efgh", body := .startTls }) :=
  ⟨by with_unfolding_all rfl, by with_unfolding_all rfl⟩

/-- imap-codec/tests/trace.rs:177. -/
example : Inverse .response
    b!"efgh OK STARTLS completed\r\n" []
    (.status (.tagged b!"efgh" .ok none b!"STARTLS completed")) :=
  ⟨by with_unfolding_all rfl, by with_unfolding_all rfl⟩

/-- imap-codec/tests/trace.rs:189. -/
example : Inverse .command
    b!"ijkl CAPABILITY\r\n" []
    ({ tag := b!"ijkl", body := .capability }) :=
  ⟨by with_unfolding_all rfl, by with_unfolding_all rfl⟩

/-- imap-codec/tests/trace.rs:193. -/
example : Inverse .response
    b!"* CAPABILITY IMAP4rev1 AUTH=GSSAPI AUTH=PLAIN\r\n" []
    (.data (.capability [.imap4Rev1, .auth (.other b!"GSSAPI"), .auth .plain])) :=
  ⟨by with_unfolding_all rfl, by with_unfolding_all rfl⟩

/-- imap-codec/tests/trace.rs:204. -/
example : Inverse .response
    b!"ijkl OK CAPABILITY completed\r\n" []
    (.status (.tagged b!"ijkl" .ok none b!"CAPABILITY completed")) :=
  ⟨by with_unfolding_all rfl, by with_unfolding_all rfl⟩

/-- imap-codec/tests/trace.rs:226. -/
example : Inverse .command
    b!"a002 NOOP\r\n" []
    ({ tag := b!"a002", body := .noop }) :=
  ⟨by with_unfolding_all rfl, by with_unfolding_all rfl⟩

/-- imap-codec/tests/trace.rs:230. -/
example : Inverse .response
    b!"a002 OK NOOP completed\r\n" []
    (.status (.tagged b!"a002" .ok none b!"NOOP completed")) :=
  ⟨by with_unfolding_all rfl, by with_unfolding_all rfl⟩

/-- imap-codec/tests/trace.rs:238. -/
example : Inverse .command
    b!"a047 NOOP\r\n" []
    ({ tag := b!"a047", body := .noop }) :=
  ⟨by with_unfolding_all rfl, by with_unfolding_all rfl⟩

/-- imap-codec/tests/trace.rs:242. -/
example : Inverse .response
    b!"* 22 EXPUNGE\r\n" []
    (.data (.expunge 22)) :=
  ⟨by with_unfolding_all rfl, by with_unfolding_all rfl⟩

/-- imap-codec/tests/trace.rs:246. -/
example : Inverse .response
    b!"* 23 EXISTS\r\n" []
    (.data (.exists_ 23)) :=
  ⟨by with_unfolding_all rfl, by with_unfolding_all rfl⟩

/-- imap-codec/tests/trace.rs:250. -/
example : Inverse .response
    b!"* 3 RECENT\r\n" []
    (.data (.recent 3)) :=
  ⟨by with_unfolding_all rfl, by with_unfolding_all rfl⟩

/-- imap-codec/tests/trace.rs:254. -/
example : Inverse .response
    b!"* 14 FETCH (FLAGS (\\Seen \\Deleted))\r\n" []
    (.data (.fetch 14 [.flags [.flag .seen, .flag .deleted]])) :=
  ⟨by with_unfolding_all rfl, by with_unfolding_all rfl⟩

/-- imap-codec/tests/trace.rs:268. -/
example : Inverse .response
    b!"a047 OK NOOP completed\r\n" []
    (.status (.tagged b!"a047" .ok none b!"NOOP completed")) :=
  ⟨by with_unfolding_all rfl, by with_unfolding_all rfl⟩

/-- imap-codec/tests/trace.rs:286. -/
example : Inverse .command
    b!"A023 LOGOUT\r\n" []
    ({ tag := b!"A023", body := .logout }) :=
  ⟨by with_unfolding_all rfl, by with_unfolding_all rfl⟩

/-- imap-codec/tests/trace.rs:290. -/
example : Inverse .response
    b!"* BYE IMAP4rev1 Server logging out\r\n" []
    (.status (.bye none b!"IMAP4rev1 Server logging out")) :=
  ⟨by with_unfolding_all rfl, by with_unfolding_all rfl⟩

/-- imap-codec/tests/trace.rs:296. -/
example : Inverse .response
    b!"A023 OK LOGOUT completed\r\n" []
    (.status (.tagged b!"A023" .ok none b!"LOGOUT completed")) :=
  ⟨by with_unfolding_all rfl, by with_unfolding_all rfl⟩

/-- imap-codec/tests/trace.rs:366. -/
example : Inverse .command
    b!"a001 LOGIN SMITH SESAME\r\n" []
    ({ tag := b!"a001", body := .login (.atom b!"SMITH") (.atom b!"SESAME") }) :=
  ⟨by with_unfolding_all rfl, by with_unfolding_all rfl⟩

/-- imap-codec/tests/trace.rs:373. -/
example : Inverse .command
    b!"a001 LOGIN \"SMITH\" SESAME\r\n" []
    ({ tag := b!"a001", body := .login (.string (.quoted b!"SMITH")) (.atom b!"SESAME") }) :=
  ⟨by with_unfolding_all rfl, by with_unfolding_all rfl⟩

/-- imap-codec/tests/trace.rs:392. -/
example : Inverse .response
    b!"a001 OK LOGIN completed\r\n" []
    (.status (.tagged b!"a001" .ok none b!"LOGIN completed")) :=
  ⟨by with_unfolding_all rfl, by with_unfolding_all rfl⟩

/-- imap-codec/tests/trace.rs:413. -/
example : Inverse .command
    b!"A142 SELECT INBOX\r\n" []
    ({ tag := b!"A142", body := .select .inbox [] }) :=
  ⟨by with_unfolding_all rfl, by with_unfolding_all rfl⟩

/-- imap-codec/tests/trace.rs:419. -/
example : Inverse .response
    b!"* 172 EXISTS\r\n" []
    (.data (.exists_ 172)) :=
  ⟨by with_unfolding_all rfl, by with_unfolding_all rfl⟩

/-- imap-codec/tests/trace.rs:423. -/
example : Inverse .response
    b!"* 1 RECENT\r\n" []
    (.data (.recent 1)) :=
  ⟨by with_unfolding_all rfl, by with_unfolding_all rfl⟩

/-- imap-codec/tests/trace.rs:427. -/
example : Inverse .response
    b!"* OK [UNSEEN 12] Message 12 is first unseen\r\n" []
    (.status (.untagged .ok (some (.unseen 12)) b!"Message 12 is first unseen")) :=
  ⟨by with_unfolding_all rfl, by with_unfolding_all rfl⟩

/-- imap-codec/tests/trace.rs:438. -/
example : Inverse .response
    b!"* OK [UIDVALIDITY 3857529045] UIDs valid\r\n" []
    (.status (.untagged .ok (some (.uidValidity 3857529045)) b!"UIDs valid")) :=
  ⟨by with_unfolding_all rfl, by with_unfolding_all rfl⟩

/-- imap-codec/tests/trace.rs:449. -/
example : Inverse .response
    b!"* OK [UIDNEXT 4392] Predicted next UID\r\n" []
    (.status (.untagged .ok (some (.uidNext 4392)) b!"Predicted next UID")) :=
  ⟨by with_unfolding_all rfl, by with_unfolding_all rfl⟩

/-- imap-codec/tests/trace.rs:460. -/
example : Inverse .response
    b!"* FLAGS (\\Answered \\Flagged \\Deleted \\Seen \\Draft)\r\n" []
    (.data (.flags [.answered, .flagged, .deleted, .seen, .draft])) :=
  ⟨by with_unfolding_all rfl, by with_unfolding_all rfl⟩

/-- imap-codec/tests/trace.rs:470. -/
example : Inverse .response
    b!"* OK [PERMANENTFLAGS (\\Deleted \\Seen \\*)] Limited\r\n" []
    (.status (.untagged .ok (some (.permanentFlags [.flag .deleted, .flag .seen, .asterisk])) b!"Limited")) :=
  ⟨by with_unfolding_all rfl, by with_unfolding_all rfl⟩

/-- imap-codec/tests/trace.rs:485. -/
example : Inverse .response
    b!"A142 OK [READ-WRITE] SELECT completed\r\n" []
    (.status (.tagged b!"A142" .ok (some .readWrite) b!"SELECT completed")) :=
  ⟨by with_unfolding_all rfl, by with_unfolding_all rfl⟩

/-- imap-codec/tests/trace.rs:507. -/
example : Inverse .command
    b!"A932 EXAMINE blurdybloop\r\n" []
    ({ tag := b!"A932", body := .examine (.other (.atom b!"blurdybloop")) [] }) :=
  ⟨by with_unfolding_all rfl, by with_unfolding_all rfl⟩

/-- imap-codec/tests/trace.rs:513. -/
example : Inverse .response
    b!"* 17 EXISTS\r\n" []
    (.data (.exists_ 17)) :=
  ⟨by with_unfolding_all rfl, by with_unfolding_all rfl⟩

/-- imap-codec/tests/trace.rs:517. -/
example : Inverse .response
    b!"* 2 RECENT\r\n" []
    (.data (.recent 2)) :=
  ⟨by with_unfolding_all rfl, by with_unfolding_all rfl⟩

/-- imap-codec/tests/trace.rs:521. -/
example : Inverse .response
    b!"* OK [UNSEEN 8] Message 8 is first unseen\r\n" []
    (.status (.untagged .ok (some (.unseen 8)) b!"Message 8 is first unseen")) :=
  ⟨by with_unfolding_all rfl, by with_unfolding_all rfl⟩

/-- imap-codec/tests/trace.rs:532. -/
example : Inverse .response
    b!"* OK [UIDVALIDITY 3857529045] UIDs valid\r\n" []
    (.status (.untagged .ok (some (.uidValidity 3857529045)) b!"UIDs valid")) :=
  ⟨by with_unfolding_all rfl, by with_unfolding_all rfl⟩

/-- imap-codec/tests/trace.rs:543. -/
example : Inverse .response
    b!"* OK [UIDNEXT 4392] Predicted next UID\r\n" []
    (.status (.untagged .ok (some (.uidNext 4392)) b!"Predicted next UID")) :=
  ⟨by with_unfolding_all rfl, by with_unfolding_all rfl⟩

/-- imap-codec/tests/trace.rs:554. -/
example : Inverse .response
    b!"* FLAGS (\\Answered \\Flagged \\Deleted \\Seen \\Draft)\r\n" []
    (.data (.flags [.answered, .flagged, .deleted, .seen, .draft])) :=
  ⟨by with_unfolding_all rfl, by with_unfolding_all rfl⟩

/-- imap-codec/tests/trace.rs:564. -/
example : Inverse .response
    b!"* OK [PERMANENTFLAGS ()] No permanent flags permitted\r\n" []
    (.status (.untagged .ok (some (.permanentFlags [])) b!"No permanent flags permitted")) :=
  ⟨by with_unfolding_all rfl, by with_unfolding_all rfl⟩

/-- imap-codec/tests/trace.rs:575. -/
example : Inverse .response
    b!"A932 OK [READ-ONLY] EXAMINE completed\r\n" []
    (.status (.tagged b!"A932" .ok (some .readOnly) b!"EXAMINE completed")) :=
  ⟨by with_unfolding_all rfl, by with_unfolding_all rfl⟩

/-- imap-codec/tests/trace.rs:862. -/
example : Inverse .response
    b!"* OK IMAP4rev1 Service Ready\r\n" []
    (.status (.untagged .ok none b!"IMAP4rev1 Service Ready")) :=
  ⟨by with_unfolding_all rfl, by with_unfolding_all rfl⟩

/-- imap-codec/tests/trace.rs:868. -/
example : Inverse .command
    b!"a001 login mrc secret\r\n" []
    ({ tag := b!"a001", body := .login (.atom b!"mrc") (.atom b!"secret") }) :=
  ⟨by with_unfolding_all rfl, by with_unfolding_all rfl⟩

/-- imap-codec/tests/trace.rs:874. -/
example : Inverse .response
    b!"a001 OK LOGIN completed\r\n" []
    (.status (.tagged b!"a001" .ok none b!"LOGIN completed")) :=
  ⟨by with_unfolding_all rfl, by with_unfolding_all rfl⟩

/-- imap-codec/tests/trace.rs:885. -/
example : Inverse .command
    b!"a002 select inbox\r\n" []
    ({ tag := b!"a002", body := .select .inbox [] }) :=
  ⟨by with_unfolding_all rfl, by with_unfolding_all rfl⟩

/-- imap-codec/tests/trace.rs:891. -/
example : Inverse .response
    b!"* 18 EXISTS\r\n" []
    (.data (.exists_ 18)) :=
  ⟨by with_unfolding_all rfl, by with_unfolding_all rfl⟩

/-- imap-codec/tests/trace.rs:895. -/
example : Inverse .response
    b!"* FLAGS (\\Answered \\Flagged \\Deleted \\Seen \\Draft)\r\n" []
    (.data (.flags [.answered, .flagged, .deleted, .seen, .draft])) :=
  ⟨by with_unfolding_all rfl, by with_unfolding_all rfl⟩

/-- imap-codec/tests/trace.rs:905. -/
example : Inverse .response
    b!"* 2 RECENT\r\n" []
    (.data (.recent 2)) :=
  ⟨by with_unfolding_all rfl, by with_unfolding_all rfl⟩

/-- imap-codec/tests/trace.rs:909. -/
example : Inverse .response
    b!"* OK [UNSEEN 17] Message 17 is the first unseen message\r\n" []
    (.status (.untagged .ok (some (.unseen 17)) b!"Message 17 is the first unseen message")) :=
  ⟨by with_unfolding_all rfl, by with_unfolding_all rfl⟩

/-- imap-codec/tests/trace.rs:920. -/
example : Inverse .response
    b!"* OK [UIDVALIDITY 3857529045] UIDs valid\r\n" []
    (.status (.untagged .ok (some (.uidValidity 3857529045)) b!"UIDs valid")) :=
  ⟨by with_unfolding_all rfl, by with_unfolding_all rfl⟩

/-- imap-codec/tests/trace.rs:931. -/
example : Inverse .response
    b!"a002 OK [READ-WRITE] SELECT completed\r\n" []
    (.status (.tagged b!"a002" .ok (some .readWrite) b!"SELECT completed")) :=
  ⟨by with_unfolding_all rfl, by with_unfolding_all rfl⟩

/-- imap-codec/tests/trace.rs:942. -/
example : Inverse .command
    b!"a003 fetch 12 full\r\n" []
    ({ tag := b!"a003", body := .fetch [.single (.value 12)] (.macro_ .full) false [] }) :=
  ⟨by with_unfolding_all rfl, by with_unfolding_all rfl⟩

/-- imap-codec/tests/trace.rs:952. -/
example : Inverse .response
    b!"* 12 FETCH (FLAGS (\\Seen) INTERNALDATE \"17-Jul-1996 02:44:25 -0700\" RFC822.SIZE 4286 ENVELOPE (\"Wed, 17 Jul 1996 02:23:25 -0700 (PDT)\" \"IMAP4rev1 WG mtg summary and minutes\" ((\"Terry Gray\" NIL \"gray\" \"cac.washington.edu\")) ((\"Terry Gray\" NIL \"gray\" \"cac.washington.edu\")) ((\"Terry Gray\" NIL \"gray\" \"cac.washington.edu\")) ((NIL NIL \"imap\" \"cac.washington.edu\")) ((NIL NIL \"minutes\" \"CNRI.Reston.VA.US\")(\"John Klensin\" NIL \"KLENSIN\" \"MIT.EDU\")) NIL NIL \"<B27397-0100000@cac.washington.edu>\") BODY (\"TEXT\" \"PLAIN\" (\"CHARSET\" \"US-ASCII\") NIL NIL \"7BIT\" 3028 92))\r\n" []
    (.data (.fetch 12 [.flags [.flag .seen], .internalDate { date := { year := 1996, month := 7, day := 17 }, hour := 2, minute := 44, second := 25, offset := -25200 }, .rfc822Size 4286, .envelope { date := some (.quoted b!"Wed, 17 Jul 1996 02:23:25 -0700 (PDT)"), subject := some (.quoted b!"IMAP4rev1 WG mtg summary and minutes"), from_ := [{ name := some (.quoted b!"Terry Gray"), adl := none, mailbox := some (.quoted b!"gray"), host := some (.quoted b!"cac.washington.edu") }], sender := [{ name := some (.quoted b!"Terry Gray"), adl := none, mailbox := some (.quoted b!"gray"), host := some (.quoted b!"cac.washington.edu") }], replyTo := [{ name := some (.quoted b!"Terry Gray"), adl := none, mailbox := some (.quoted b!"gray"), host := some (.quoted b!"cac.washington.edu") }], to_ := [{ name := none, adl := none, mailbox := some (.quoted b!"imap"), host := some (.quoted b!"cac.washington.edu") }], cc := [{ name := none, adl := none, mailbox := some (.quoted b!"minutes"), host := some (.quoted b!"CNRI.Reston.VA.US") }, { name := some (.quoted b!"John Klensin"), adl := none, mailbox := some (.quoted b!"KLENSIN"), host := some (.quoted b!"MIT.EDU") }], bcc := [], inReplyTo := none, messageId := some (.quoted b!"<B27397-0100000@cac.washington.edu>") }, .body (.text { parameterList := [(.quoted b!"CHARSET", .quoted b!"US-ASCII")], id := none, description := none, contentTransferEncoding := .quoted b!"7BIT", size := 3028 } (.quoted b!"PLAIN") 92 none)])) :=
  ⟨by with_unfolding_all rfl, by with_unfolding_all rfl⟩

/-- imap-codec/tests/trace.rs:1060. -/
example : Inverse .response
    b!"a003 OK FETCH completed\r\n" []
    (.status (.tagged b!"a003" .ok none b!"FETCH completed")) :=
  ⟨by with_unfolding_all rfl, by with_unfolding_all rfl⟩

/-- imap-codec/tests/trace.rs:1071. -/
example : Inverse .command
    b!"a004 fetch 12 body[header]\r\n" []
    ({ tag := b!"a004", body := .fetch [.single (.value 12)] (.names [.bodyExt (some (.header none)) none false]) false [] }) :=
  ⟨by with_unfolding_all rfl, by with_unfolding_all rfl⟩

/-- imap-codec/tests/trace.rs:1090. -/
example : Inverse .response
    b!"* 12 FETCH (BODY[HEADER] {342}\r\nDate: Wed, 17 Jul 1996 02:23:25 -0700 (PDT)\r\nFrom: Terry Gray <gray@cac.washington.edu>\r\nSubject: IMAP4rev1 WG mtg summary and minutes\r\nTo: imap@cac.washington.edu\r\ncc: minutes@CNRI.Reston.VA.US, John Klensin <KLENSIN@MIT.EDU>\r\nMessage-Id: <B27397-0100000@cac.washington.edu>\r\nMIME-Version: 1.0\r\nContent-Type: TEXT/PLAIN; CHARSET=US-ASCII\r\n\r\n)\r\n" []
    (.data (.fetch 12 [.bodyExt (some (.header none)) none (some (.literal { data := b!"Date: Wed, 17 Jul 1996 02:23:25 -0700 (PDT)\r\nFrom: Terry Gray <gray@cac.washington.edu>\r\nSubject: IMAP4rev1 WG mtg summary and minutes\r\nTo: imap@cac.washington.edu\r\ncc: minutes@CNRI.Reston.VA.US, John Klensin <KLENSIN@MIT.EDU>\r\nMessage-Id: <B27397-0100000@cac.washington.edu>\r\nMIME-Version: 1.0\r\nContent-Type: TEXT/PLAIN; CHARSET=US-ASCII\r\n\r\n", mode := .sync }))])) :=
  ⟨by with_unfolding_all rfl, by with_unfolding_all rfl⟩

/-- imap-codec/tests/trace.rs:1129. -/
example : Inverse .response
    b!"a004 OK FETCH completed\r\n" []
    (.status (.tagged b!"a004" .ok none b!"FETCH completed")) :=
  ⟨by with_unfolding_all rfl, by with_unfolding_all rfl⟩

/-- imap-codec/tests/trace.rs:1140. -/
example : Inverse .command
    b!"a005 store 12 +flags \\deleted\r\n" []
    ({ tag := b!"a005", body := .store [.single (.value 12)] .add .answer [.deleted] false [] }) :=
  ⟨by with_unfolding_all rfl, by with_unfolding_all rfl⟩

/-- imap-codec/tests/trace.rs:1157. -/
example : Inverse .response
    b!"* 12 FETCH (FLAGS (\\Seen \\Deleted))\r\n" []
    (.data (.fetch 12 [.flags [.flag .seen, .flag .deleted]])) :=
  ⟨by with_unfolding_all rfl, by with_unfolding_all rfl⟩

/-- imap-codec/tests/trace.rs:1170. -/
example : Inverse .response
    b!"a005 OK +FLAGS completed\r\n" []
    (.status (.tagged b!"a005" .ok none b!"+FLAGS completed")) :=
  ⟨by with_unfolding_all rfl, by with_unfolding_all rfl⟩

/-- imap-codec/tests/trace.rs:1181. -/
example : Inverse .command
    b!"a006 logout\r\n" []
    ({ tag := b!"a006", body := .logout }) :=
  ⟨by with_unfolding_all rfl, by with_unfolding_all rfl⟩

/-- imap-codec/tests/trace.rs:1185. -/
example : Inverse .response
    b!"* BYE IMAP4rev1 server terminating connection\r\n" []
    (.status (.bye none b!"IMAP4rev1 server terminating connection")) :=
  ⟨by with_unfolding_all rfl, by with_unfolding_all rfl⟩

/-- imap-codec/tests/trace.rs:1191. -/
example : Inverse .response
    b!"a006 OK LOGOUT completed\r\n" []
    (.status (.tagged b!"a006" .ok none b!"LOGOUT completed")) :=
  ⟨by with_unfolding_all rfl, by with_unfolding_all rfl⟩

/-- imap-codec/tests/trace.rs:317. -/
example : RoundTrips .command b!"a001 CAPABILITY\r\n" := by with_unfolding_all rfl

/-- imap-codec/tests/trace.rs:318. -/
example : RoundTrips .response b!"* CAPABILITY IMAP4rev1 STARTTLS LOGINDISABLED\r\n" := by with_unfolding_all rfl

/-- imap-codec/tests/trace.rs:319. -/
example : RoundTrips .response b!"a001 OK CAPABILITY completed\r\n" := by with_unfolding_all rfl

/-- imap-codec/tests/trace.rs:320. -/
example : RoundTrips .command b!"a002 STARTTLS\r\n" := by with_unfolding_all rfl

/-- imap-codec/tests/trace.rs:321. -/
example : RoundTrips .response b!"a002 OK Begin TLS negotiation now\r\n" := by with_unfolding_all rfl

/-- imap-codec/tests/trace.rs:322. -/
example : RoundTrips .command b!"a003 CAPABILITY\r\n" := by with_unfolding_all rfl

/-- imap-codec/tests/trace.rs:323. -/
example : RoundTrips .response b!"* CAPABILITY IMAP4rev1 AUTH=PLAIN\r\n" := by with_unfolding_all rfl

/-- imap-codec/tests/trace.rs:324. -/
example : RoundTrips .response b!"a003 OK CAPABILITY completed\r\n" := by with_unfolding_all rfl

/-- imap-codec/tests/trace.rs:325. -/
example : RoundTrips .command b!"a004 LOGIN joe password\r\n" := by with_unfolding_all rfl

/-- imap-codec/tests/trace.rs:326. -/
example : RoundTrips .response b!"a004 OK LOGIN completed\r\n" := by with_unfolding_all rfl

/-- imap-codec/tests/trace.rs:595. -/
example : RoundTrips .command b!"A003 CREATE owatagusiam/\r\n" := by with_unfolding_all rfl

/-- imap-codec/tests/trace.rs:596. -/
example : RoundTrips .response b!"A003 OK CREATE completed\r\n" := by with_unfolding_all rfl

/-- imap-codec/tests/trace.rs:597. -/
example : RoundTrips .command b!"A004 CREATE owatagusiam/blurdybloop\r\n" := by with_unfolding_all rfl

/-- imap-codec/tests/trace.rs:598. -/
example : RoundTrips .response b!"A004 OK CREATE completed\r\n" := by with_unfolding_all rfl

/-- imap-codec/tests/trace.rs:606. -/
example : RoundTrips .command b!"A682 LIST \"\" *\r\n" := by with_unfolding_all rfl

/-- imap-codec/tests/trace.rs:607. -/
example : RoundTrips .response b!"* LIST () \"/\" blurdybloop\r\n" := by with_unfolding_all rfl

/-- imap-codec/tests/trace.rs:608. -/
example : RoundTrips .response b!"* LIST (\\Noselect) \"/\" foo\r\n" := by with_unfolding_all rfl

/-- imap-codec/tests/trace.rs:609. -/
example : RoundTrips .response b!"* LIST () \"/\" foo/bar\r\n" := by with_unfolding_all rfl

/-- imap-codec/tests/trace.rs:610. -/
example : RoundTrips .response b!"A682 OK LIST completed\r\n" := by with_unfolding_all rfl

/-- imap-codec/tests/trace.rs:611. -/
example : RoundTrips .command b!"A683 DELETE blurdybloop\r\n" := by with_unfolding_all rfl

/-- imap-codec/tests/trace.rs:612. -/
example : RoundTrips .response b!"A683 OK DELETE completed\r\n" := by with_unfolding_all rfl

/-- imap-codec/tests/trace.rs:613. -/
example : RoundTrips .command b!"A684 DELETE foo\r\n" := by with_unfolding_all rfl

/-- imap-codec/tests/trace.rs:614. -/
example : RoundTrips .response
    b!"A684 NO Name \"foo\" has inferior hierarchical names\r\n" :=
  by with_unfolding_all rfl

/-- imap-codec/tests/trace.rs:615. -/
example : RoundTrips .command b!"A685 DELETE foo/bar\r\n" := by with_unfolding_all rfl

/-- imap-codec/tests/trace.rs:616. -/
example : RoundTrips .response b!"A685 OK DELETE Completed\r\n" := by with_unfolding_all rfl

/-- imap-codec/tests/trace.rs:617. -/
example : RoundTrips .command b!"A686 LIST \"\" *\r\n" := by with_unfolding_all rfl

/-- imap-codec/tests/trace.rs:618. -/
example : RoundTrips .response b!"* LIST (\\Noselect) \"/\" foo\r\n" := by with_unfolding_all rfl

/-- imap-codec/tests/trace.rs:619. -/
example : RoundTrips .response b!"A686 OK LIST completed\r\n" := by with_unfolding_all rfl

/-- imap-codec/tests/trace.rs:620. -/
example : RoundTrips .command b!"A687 DELETE foo\r\n" := by with_unfolding_all rfl

/-- imap-codec/tests/trace.rs:621. -/
example : RoundTrips .response b!"A687 OK DELETE Completed\r\n" := by with_unfolding_all rfl

/-- imap-codec/tests/trace.rs:622. -/
example : RoundTrips .command b!"A82 LIST \"\" *\r\n" := by with_unfolding_all rfl

/-- imap-codec/tests/trace.rs:623. -/
example : RoundTrips .response b!"* LIST () \".\" blurdybloop\r\n" := by with_unfolding_all rfl

/-- imap-codec/tests/trace.rs:624. -/
example : RoundTrips .response b!"* LIST () \".\" foo\r\n" := by with_unfolding_all rfl

/-- imap-codec/tests/trace.rs:625. -/
example : RoundTrips .response b!"* LIST () \".\" foo.bar\r\n" := by with_unfolding_all rfl

/-- imap-codec/tests/trace.rs:626. -/
example : RoundTrips .response b!"A82 OK LIST completed\r\n" := by with_unfolding_all rfl

/-- imap-codec/tests/trace.rs:627. -/
example : RoundTrips .command b!"A83 DELETE blurdybloop\r\n" := by with_unfolding_all rfl

/-- imap-codec/tests/trace.rs:628. -/
example : RoundTrips .response b!"A83 OK DELETE completed\r\n" := by with_unfolding_all rfl

/-- imap-codec/tests/trace.rs:629. -/
example : RoundTrips .command b!"A84 DELETE foo\r\n" := by with_unfolding_all rfl

/-- imap-codec/tests/trace.rs:630. -/
example : RoundTrips .response b!"A84 OK DELETE Completed\r\n" := by with_unfolding_all rfl

/-- imap-codec/tests/trace.rs:631. -/
example : RoundTrips .command b!"A85 LIST \"\" *\r\n" := by with_unfolding_all rfl

/-- imap-codec/tests/trace.rs:632. -/
example : RoundTrips .response b!"* LIST () \".\" foo.bar\r\n" := by with_unfolding_all rfl

/-- imap-codec/tests/trace.rs:633. -/
example : RoundTrips .response b!"A85 OK LIST completed\r\n" := by with_unfolding_all rfl

/-- imap-codec/tests/trace.rs:634. -/
example : RoundTrips .command b!"A86 LIST \"\" %\r\n" := by with_unfolding_all rfl

/-- imap-codec/tests/trace.rs:635. -/
example : RoundTrips .response b!"* LIST (\\Noselect) \".\" foo\r\n" := by with_unfolding_all rfl

/-- imap-codec/tests/trace.rs:636. -/
example : RoundTrips .response b!"A86 OK LIST completed\r\n" := by with_unfolding_all rfl

/-- imap-codec/tests/trace.rs:644. -/
example : RoundTrips .command b!"A682 LIST \"\" *\r\n" := by with_unfolding_all rfl

/-- imap-codec/tests/trace.rs:645. -/
example : RoundTrips .response b!"* LIST () \"/\" blurdybloop\r\n" := by with_unfolding_all rfl

/-- imap-codec/tests/trace.rs:646. -/
example : RoundTrips .response b!"* LIST (\\Noselect) \"/\" foo\r\n" := by with_unfolding_all rfl

/-- imap-codec/tests/trace.rs:647. -/
example : RoundTrips .response b!"* LIST () \"/\" foo/bar\r\n" := by with_unfolding_all rfl

/-- imap-codec/tests/trace.rs:648. -/
example : RoundTrips .response b!"A682 OK LIST completed\r\n" := by with_unfolding_all rfl

/-- imap-codec/tests/trace.rs:649. -/
example : RoundTrips .command b!"A683 RENAME blurdybloop sarasoop\r\n" := by with_unfolding_all rfl

/-- imap-codec/tests/trace.rs:650. -/
example : RoundTrips .response b!"A683 OK RENAME completed\r\n" := by with_unfolding_all rfl

/-- imap-codec/tests/trace.rs:651. -/
example : RoundTrips .command b!"A684 RENAME foo zowie\r\n" := by with_unfolding_all rfl

/-- imap-codec/tests/trace.rs:652. -/
example : RoundTrips .response b!"A684 OK RENAME Completed\r\n" := by with_unfolding_all rfl

/-- imap-codec/tests/trace.rs:653. -/
example : RoundTrips .command b!"A685 LIST \"\" *\r\n" := by with_unfolding_all rfl

/-- imap-codec/tests/trace.rs:654. -/
example : RoundTrips .response b!"* LIST () \"/\" sarasoop\r\n" := by with_unfolding_all rfl

/-- imap-codec/tests/trace.rs:655. -/
example : RoundTrips .response b!"* LIST (\\Noselect) \"/\" zowie\r\n" := by with_unfolding_all rfl

/-- imap-codec/tests/trace.rs:656. -/
example : RoundTrips .response b!"* LIST () \"/\" zowie/bar\r\n" := by with_unfolding_all rfl

/-- imap-codec/tests/trace.rs:657. -/
example : RoundTrips .response b!"A685 OK LIST completed\r\n" := by with_unfolding_all rfl

/-- imap-codec/tests/trace.rs:658. -/
example : RoundTrips .command b!"Z432 LIST \"\" *\r\n" := by with_unfolding_all rfl

/-- imap-codec/tests/trace.rs:659. -/
example : RoundTrips .response b!"* LIST () \".\" INBOX\r\n" := by with_unfolding_all rfl

/-- imap-codec/tests/trace.rs:660. -/
example : RoundTrips .response b!"* LIST () \".\" INBOX.bar\r\n" := by with_unfolding_all rfl

/-- imap-codec/tests/trace.rs:661. -/
example : RoundTrips .response b!"Z432 OK LIST completed\r\n" := by with_unfolding_all rfl

/-- imap-codec/tests/trace.rs:662. -/
example : RoundTrips .command b!"Z433 RENAME INBOX old-mail\r\n" := by with_unfolding_all rfl

/-- imap-codec/tests/trace.rs:663. -/
example : RoundTrips .response b!"Z433 OK RENAME completed\r\n" := by with_unfolding_all rfl

/-- imap-codec/tests/trace.rs:664. -/
example : RoundTrips .command b!"Z434 LIST \"\" *\r\n" := by with_unfolding_all rfl

/-- imap-codec/tests/trace.rs:665. -/
example : RoundTrips .response b!"* LIST () \".\" INBOX\r\n" := by with_unfolding_all rfl

/-- imap-codec/tests/trace.rs:666. -/
example : RoundTrips .response b!"* LIST () \".\" INBOX.bar\r\n" := by with_unfolding_all rfl

/-- imap-codec/tests/trace.rs:667. -/
example : RoundTrips .response b!"* LIST () \".\" old-mail\r\n" := by with_unfolding_all rfl

/-- imap-codec/tests/trace.rs:668. -/
example : RoundTrips .response b!"Z434 OK LIST completed\r\n" := by with_unfolding_all rfl

/-- imap-codec/tests/trace.rs:676. -/
example : RoundTrips .command b!"A002 SUBSCRIBE #news.comp.mail.mime\r\n" := by with_unfolding_all rfl

/-- imap-codec/tests/trace.rs:677. -/
example : RoundTrips .response b!"A002 OK SUBSCRIBE completed\r\n" := by with_unfolding_all rfl

/-- imap-codec/tests/trace.rs:685. -/
example : RoundTrips .command b!"A002 UNSUBSCRIBE #news.comp.mail.mime\r\n" := by with_unfolding_all rfl

/-- imap-codec/tests/trace.rs:686. -/
example : RoundTrips .response b!"A002 OK UNSUBSCRIBE completed\r\n" := by with_unfolding_all rfl

/-- imap-codec/tests/trace.rs:694. -/
example : RoundTrips .command b!"A101 LIST \"\" \"\"\r\n" := by with_unfolding_all rfl

/-- imap-codec/tests/trace.rs:695. -/
example : RoundTrips .response b!"* LIST (\\Noselect) \"/\" \"\"\r\n" := by with_unfolding_all rfl

/-- imap-codec/tests/trace.rs:696. -/
example : RoundTrips .response b!"A101 OK LIST Completed\r\n" := by with_unfolding_all rfl

/-- imap-codec/tests/trace.rs:697. -/
example : RoundTrips .command b!"A102 LIST #news.comp.mail.misc \"\"\r\n" := by with_unfolding_all rfl

/-- imap-codec/tests/trace.rs:698. -/
example : RoundTrips .response b!"* LIST (\\Noselect) \".\" #news.\r\n" := by with_unfolding_all rfl

/-- imap-codec/tests/trace.rs:699. -/
example : RoundTrips .response b!"A102 OK LIST Completed\r\n" := by with_unfolding_all rfl

/-- imap-codec/tests/trace.rs:700. -/
example : RoundTrips .command b!"A103 LIST /usr/staff/jones \"\"\r\n" := by with_unfolding_all rfl

/-- imap-codec/tests/trace.rs:701. -/
example : RoundTrips .response b!"* LIST (\\Noselect) \"/\" /\r\n" := by with_unfolding_all rfl

/-- imap-codec/tests/trace.rs:702. -/
example : RoundTrips .response b!"A103 OK LIST Completed\r\n" := by with_unfolding_all rfl

/-- imap-codec/tests/trace.rs:703. -/
example : RoundTrips .command b!"A202 LIST ~/Mail/ %\r\n" := by with_unfolding_all rfl

/-- imap-codec/tests/trace.rs:704. -/
example : RoundTrips .response b!"* LIST (\\Noselect) \"/\" ~/Mail/foo\r\n" := by with_unfolding_all rfl

/-- imap-codec/tests/trace.rs:705. -/
example : RoundTrips .response b!"* LIST () \"/\" ~/Mail/meetings\r\n" := by with_unfolding_all rfl

/-- imap-codec/tests/trace.rs:706. -/
example : RoundTrips .response b!"A202 OK LIST completed\r\n" := by with_unfolding_all rfl

/-- imap-codec/tests/trace.rs:714. -/
example : RoundTrips .command b!"A002 LSUB \"news.\" \"comp.mail.*\"\r\n" := by with_unfolding_all rfl

/-- imap-codec/tests/trace.rs:715. -/
example : RoundTrips .response b!"* LSUB () \".\" #news.comp.mail.mime\r\n" := by with_unfolding_all rfl

/-- imap-codec/tests/trace.rs:716. -/
example : RoundTrips .response b!"* LSUB () \".\" #news.comp.mail.misc\r\n" := by with_unfolding_all rfl

/-- imap-codec/tests/trace.rs:717. -/
example : RoundTrips .response b!"A002 OK LSUB completed\r\n" := by with_unfolding_all rfl

/-- imap-codec/tests/trace.rs:718. -/
example : RoundTrips .command b!"A003 LSUB \"news.\" \"comp.%\"\r\n" := by with_unfolding_all rfl

/-- imap-codec/tests/trace.rs:719. -/
example : RoundTrips .response b!"* LSUB (\\NoSelect) \".\" #news.comp.mail\r\n" := by with_unfolding_all rfl

/-- imap-codec/tests/trace.rs:720. -/
example : RoundTrips .response b!"A003 OK LSUB completed\r\n" := by with_unfolding_all rfl

/-- imap-codec/tests/trace.rs:728. -/
example : RoundTrips .command b!"A042 STATUS blurdybloop (UIDNEXT MESSAGES)\r\n" := by with_unfolding_all rfl

/-- imap-codec/tests/trace.rs:729. -/
example : RoundTrips .response b!"* STATUS blurdybloop (MESSAGES 231 UIDNEXT 44292)\r\n" := by with_unfolding_all rfl

/-- imap-codec/tests/trace.rs:730. -/
example : RoundTrips .response b!"A042 OK STATUS completed\r\n" := by with_unfolding_all rfl

/-- imap-codec/tests/trace.rs:755. -/
example : RoundTrips .command b!"FXXZ CHECK\r\n" := by with_unfolding_all rfl

/-- imap-codec/tests/trace.rs:756. -/
example : RoundTrips .response b!"FXXZ OK CHECK Completed\r\n" := by with_unfolding_all rfl

/-- imap-codec/tests/trace.rs:764. -/
example : RoundTrips .command b!"A341 CLOSE\r\n" := by with_unfolding_all rfl

/-- imap-codec/tests/trace.rs:765. -/
example : RoundTrips .response b!"A341 OK CLOSE completed\r\n" := by with_unfolding_all rfl

/-- imap-codec/tests/trace.rs:773. -/
example : RoundTrips .command b!"A202 EXPUNGE\r\n" := by with_unfolding_all rfl

/-- imap-codec/tests/trace.rs:774. -/
example : RoundTrips .response b!"* 3 EXPUNGE\r\n" := by with_unfolding_all rfl

/-- imap-codec/tests/trace.rs:775. -/
example : RoundTrips .response b!"* 3 EXPUNGE\r\n" := by with_unfolding_all rfl

/-- imap-codec/tests/trace.rs:776. -/
example : RoundTrips .response b!"* 5 EXPUNGE\r\n" := by with_unfolding_all rfl

/-- imap-codec/tests/trace.rs:777. -/
example : RoundTrips .response b!"* 8 EXPUNGE\r\n" := by with_unfolding_all rfl

/-- imap-codec/tests/trace.rs:778. -/
example : RoundTrips .response b!"A202 OK EXPUNGE completed\r\n" := by with_unfolding_all rfl

/-- imap-codec/tests/trace.rs:788. -/
example : RoundTrips .command
    b!"A282 SEARCH FLAGGED SINCE 1-Feb-1994 NOT FROM \"Smith\"\r\n" :=
  by with_unfolding_all rfl

/-- imap-codec/tests/trace.rs:789. -/
example : RoundTrips .response b!"* SEARCH 2 84 882\r\n" := by with_unfolding_all rfl

/-- imap-codec/tests/trace.rs:790. -/
example : RoundTrips .response b!"A282 OK SEARCH completed\r\n" := by with_unfolding_all rfl

/-- imap-codec/tests/trace.rs:791. -/
example : RoundTrips .command b!"A283 SEARCH TEXT \"string not in mailbox\"\r\n" := by with_unfolding_all rfl

/-- imap-codec/tests/trace.rs:792. -/
example : RoundTrips .response b!"* SEARCH\r\n" := by with_unfolding_all rfl

/-- imap-codec/tests/trace.rs:793. -/
example : RoundTrips .response b!"A283 OK SEARCH completed\r\n" := by with_unfolding_all rfl

/-- imap-codec/tests/trace.rs:794. -/
example : RoundTrips .response b!"* SEARCH 43\r\n" := by with_unfolding_all rfl

/-- imap-codec/tests/trace.rs:795. -/
example : RoundTrips .response b!"A284 OK SEARCH completed\r\n" := by with_unfolding_all rfl

/-- imap-codec/tests/trace.rs:806. -/
example : RoundTrips .command
    b!"A654 FETCH 2:4 (FLAGS BODY[HEADER.FIELDS (DATE FROM)])\r\n" :=
  by with_unfolding_all rfl

/-- imap-codec/tests/trace.rs:807. -/
example : RoundTrips .response b!"A654 OK FETCH completed\r\n" := by with_unfolding_all rfl

/-- imap-codec/tests/trace.rs:815. -/
example : RoundTrips .command b!"A003 STORE 2:4 +FLAGS (\\Deleted)\r\n" := by with_unfolding_all rfl

/-- imap-codec/tests/trace.rs:816. -/
example : RoundTrips .response b!"* 2 FETCH (FLAGS (\\Deleted \\Seen))\r\n" := by with_unfolding_all rfl

/-- imap-codec/tests/trace.rs:817. -/
example : RoundTrips .response b!"* 3 FETCH (FLAGS (\\Deleted))\r\n" := by with_unfolding_all rfl

/-- imap-codec/tests/trace.rs:818. -/
example : RoundTrips .response b!"* 4 FETCH (FLAGS (\\Deleted \\Flagged \\Seen))\r\n" := by with_unfolding_all rfl

/-- imap-codec/tests/trace.rs:819. -/
example : RoundTrips .response b!"A003 OK STORE completed\r\n" := by with_unfolding_all rfl

/-- imap-codec/tests/trace.rs:827. -/
example : RoundTrips .command b!"A003 COPY 2:4 MEETING\r\n" := by with_unfolding_all rfl

/-- imap-codec/tests/trace.rs:828. -/
example : RoundTrips .response b!"A003 OK COPY completed\r\n" := by with_unfolding_all rfl

/-- imap-codec/tests/trace.rs:836. -/
example : RoundTrips .command b!"A999 UID FETCH 4827313:4828442 FLAGS\r\n" := by with_unfolding_all rfl

/-- imap-codec/tests/trace.rs:837. -/
example : RoundTrips .response b!"* 23 FETCH (FLAGS (\\Seen) UID 4827313)\r\n" := by with_unfolding_all rfl

/-- imap-codec/tests/trace.rs:838. -/
example : RoundTrips .response b!"* 24 FETCH (FLAGS (\\Seen) UID 4827943)\r\n" := by with_unfolding_all rfl

/-- imap-codec/tests/trace.rs:839. -/
example : RoundTrips .response b!"* 25 FETCH (FLAGS (\\Seen) UID 4828442)\r\n" := by with_unfolding_all rfl

/-- imap-codec/tests/trace.rs:840. -/
example : RoundTrips .response b!"A999 OK UID FETCH completed\r\n" := by with_unfolding_all rfl

/-- imap-codec/tests/trace.rs:1210. -/
example : RoundTrips .command b!"t1 CAPABILITY\r\n" := by with_unfolding_all rfl

/-- imap-codec/tests/trace.rs:1211. -/
example : RoundTrips .response
    b!"* CAPABILITY IMAP4rev1 ID LITERAL+ ENABLE X-GOOD-IDEA\r\n" :=
  by with_unfolding_all rfl

/-- imap-codec/tests/trace.rs:1212. -/
example : RoundTrips .response b!"t1 OK foo\r\n" := by with_unfolding_all rfl

/-- imap-codec/tests/trace.rs:1213. -/
example : RoundTrips .command b!"t2 ENABLE CONDSTORE X-GOOD-IDEA\r\n" := by with_unfolding_all rfl

/-- imap-codec/tests/trace.rs:1214. -/
example : RoundTrips .response b!"* ENABLED X-GOOD-IDEA\r\n" := by with_unfolding_all rfl

/-- imap-codec/tests/trace.rs:1215. -/
example : RoundTrips .response b!"t2 OK foo\r\n" := by with_unfolding_all rfl

/-- imap-codec/tests/trace.rs:1216. -/
example : RoundTrips .command b!"t3 CAPABILITY\r\n" := by with_unfolding_all rfl

/-- imap-codec/tests/trace.rs:1217. -/
example : RoundTrips .response
    b!"* CAPABILITY IMAP4rev1 ID LITERAL+ ENABLE X-GOOD-IDEA\r\n" :=
  by with_unfolding_all rfl

/-- imap-codec/tests/trace.rs:1218. -/
example : RoundTrips .response b!"t3 OK foo again\r\n" := by with_unfolding_all rfl

/-- imap-codec/tests/trace.rs:1219. -/
example : RoundTrips .command b!"a1 ENABLE CONDSTORE\r\n" := by with_unfolding_all rfl

/-- imap-codec/tests/trace.rs:1220. -/
example : RoundTrips .response b!"* ENABLED CONDSTORE\r\n" := by with_unfolding_all rfl

/-- imap-codec/tests/trace.rs:1221. -/
example : RoundTrips .response b!"a1 OK Conditional Store enabled\r\n" := by with_unfolding_all rfl

/-- imap-codec/tests/trace.rs:1229. -/
example : RoundTrips .response b!"* OK IMAP4rev1 server ready\r\n" := by with_unfolding_all rfl

/-- imap-codec/tests/trace.rs:1230. -/
example : RoundTrips .command b!"A001 LOGIN fred blurdybloop\r\n" := by with_unfolding_all rfl

/-- imap-codec/tests/trace.rs:1231. -/
example : RoundTrips .response b!"* OK [ALERT] System shutdown in 10 minutes\r\n" := by with_unfolding_all rfl

/-- imap-codec/tests/trace.rs:1232. -/
example : RoundTrips .response b!"A001 OK LOGIN Completed\r\n" := by with_unfolding_all rfl

/-- imap-codec/tests/trace.rs:1240. -/
example : RoundTrips .command b!"A222 COPY 1:2 owatagusiam\r\n" := by with_unfolding_all rfl

/-- imap-codec/tests/trace.rs:1241. -/
example : RoundTrips .response
    b!"* NO Disk is 98% full, please delete unnecessary data\r\n" :=
  by with_unfolding_all rfl

/-- imap-codec/tests/trace.rs:1242. -/
example : RoundTrips .response b!"A222 OK COPY completed\r\n" := by with_unfolding_all rfl

/-- imap-codec/tests/trace.rs:1243. -/
example : RoundTrips .command b!"A223 COPY 3:200 blurdybloop\r\n" := by with_unfolding_all rfl

/-- imap-codec/tests/trace.rs:1244. -/
example : RoundTrips .response
    b!"* NO Disk is 98% full, please delete unnecessary data\r\n" :=
  by with_unfolding_all rfl

/-- imap-codec/tests/trace.rs:1245. -/
example : RoundTrips .response
    b!"* NO Disk is 99% full, please delete unnecessary data\r\n" :=
  by with_unfolding_all rfl

/-- imap-codec/tests/trace.rs:1246. -/
example : RoundTrips .response b!"A223 NO COPY failed: disk is full\r\n" := by with_unfolding_all rfl

/-- imap-codec/tests/trace.rs:1254. -/
example : RoundTrips .response b!"* BAD Command line too long\r\n" := by with_unfolding_all rfl

/-- imap-codec/tests/trace.rs:1255. -/
example : RoundTrips .response b!"* BAD Empty command line\r\n" := by with_unfolding_all rfl

/-- imap-codec/tests/trace.rs:1256. -/
example : RoundTrips .command b!"A443 EXPUNGE\r\n" := by with_unfolding_all rfl

/-- imap-codec/tests/trace.rs:1257. -/
example : RoundTrips .response b!"* BAD Disk crash, attempting salvage to a new disk!\r\n" := by with_unfolding_all rfl

/-- imap-codec/tests/trace.rs:1258. -/
example : RoundTrips .response b!"* OK Salvage successful, no data lost\r\n" := by with_unfolding_all rfl

/-- imap-codec/tests/trace.rs:1259. -/
example : RoundTrips .response b!"A443 OK Expunge completed\r\n" := by with_unfolding_all rfl

/-- imap-codec/tests/trace.rs:1286. -/
example : RoundTrips .response b!"* BYE Autologout; idle for too long\r\n" := by with_unfolding_all rfl

/-- imap-codec/tests/trace.rs:1294. -/
example : RoundTrips .response
    b!"* CAPABILITY IMAP4rev1 STARTTLS AUTH=GSSAPI XPIG-LATIN\r\n" :=
  by with_unfolding_all rfl

/-- imap-codec/tests/trace.rs:1302. -/
example : RoundTrips .response b!"* LIST (\\Noselect) \"/\" ~/Mail/foo\r\n" := by with_unfolding_all rfl

/-- imap-codec/tests/trace.rs:1310. -/
example : RoundTrips .response b!"* LSUB () \".\" #news.comp.mail.misc\r\n" := by with_unfolding_all rfl

/-- imap-codec/tests/trace.rs:1318. -/
example : RoundTrips .response b!"* STATUS blurdybloop (MESSAGES 231 UIDNEXT 44292)\r\n" := by with_unfolding_all rfl

/-- imap-codec/tests/trace.rs:1326. -/
example : RoundTrips .response b!"* SEARCH 2 3 6\r\n" := by with_unfolding_all rfl

/-- imap-codec/tests/trace.rs:1334. -/
example : RoundTrips .response
    b!"* FLAGS (\\Answered \\Flagged \\Deleted \\Seen \\Draft)\r\n" :=
  by with_unfolding_all rfl

/-- imap-codec/tests/trace.rs:1342. -/
example : RoundTrips .response b!"* 23 EXISTS\r\n" := by with_unfolding_all rfl

/-- imap-codec/tests/trace.rs:1350. -/
example : RoundTrips .response b!"* 5 RECENT\r\n" := by with_unfolding_all rfl

/-- imap-codec/tests/trace.rs:1358. -/
example : RoundTrips .response b!"* 44 EXPUNGE\r\n" := by with_unfolding_all rfl

/-- imap-codec/tests/trace.rs:1366. -/
example : RoundTrips .response b!"* 23 FETCH (FLAGS (\\Seen) RFC822.SIZE 44827)\r\n" := by with_unfolding_all rfl

/-- imap-codec/tests/trace.rs:1379. -/
example : RoundTrips .response b!"+ Ready for additional command text\r\n" := by with_unfolding_all rfl

/-- imap-codec/tests/trace.rs:1380. -/
example : RoundTrips .response b!"A001 OK LOGIN completed\r\n" := by with_unfolding_all rfl

/-- imap-codec/tests/trace.rs:1381. -/
example : RoundTrips .response b!"A044 BAD No such command as \"BLURDYBLOOP\"\r\n" := by with_unfolding_all rfl

/-- imap-codec/tests/trace.rs:1407. -/
example : RoundTrips .command b!"A282 SORT (SUBJECT) UTF-8 SINCE 1-Feb-1994\r\n" := by with_unfolding_all rfl

/-- imap-codec/tests/trace.rs:1408. -/
example : RoundTrips .response b!"* SORT 2 84 882\r\n" := by with_unfolding_all rfl

/-- imap-codec/tests/trace.rs:1409. -/
example : RoundTrips .response b!"A282 OK SORT completed\r\n" := by with_unfolding_all rfl

/-- imap-codec/tests/trace.rs:1410. -/
example : RoundTrips .command b!"A283 SORT (SUBJECT REVERSE DATE) UTF-8 ALL\r\n" := by with_unfolding_all rfl

/-- imap-codec/tests/trace.rs:1411. -/
example : RoundTrips .response b!"* SORT 5 3 4 1 2\r\n" := by with_unfolding_all rfl

/-- imap-codec/tests/trace.rs:1412. -/
example : RoundTrips .response b!"A283 OK SORT completed\r\n" := by with_unfolding_all rfl

/-- imap-codec/tests/trace.rs:1413. -/
example : RoundTrips .command
    b!"A284 SORT (SUBJECT) US-ASCII TEXT \"not in mailbox\"\r\n" :=
  by with_unfolding_all rfl

/-- imap-codec/tests/trace.rs:1414. -/
example : RoundTrips .response b!"* SORT\r\n" := by with_unfolding_all rfl

/-- imap-codec/tests/trace.rs:1415. -/
example : RoundTrips .response b!"A284 OK SORT completed\r\n" := by with_unfolding_all rfl

/-- imap-codec/tests/trace.rs:1423. -/
example : RoundTrips .command b!"A283 THREAD ORDEREDSUBJECT UTF-8 SINCE 5-MAR-2000\r\n" := by with_unfolding_all rfl

/-- imap-codec/tests/trace.rs:1424. -/
example : RoundTrips .response
    b!"* THREAD (166)(167)(168)(169)(172)(170)(171)(173)(174 (175)(176)(178)(181)(180))(179)(177 (183)(182)(188)(184)(185)(186)(187)(189))(190)(191)(192)(193)(194 195)(196 (197)(198))(199)(200 202)(201)(203)(204)(205)(206 207)(208)\r\n" :=
  by with_unfolding_all rfl

/-- imap-codec/tests/trace.rs:1425. -/
example : RoundTrips .response b!"A283 OK THREAD completed\r\n" := by with_unfolding_all rfl

/-- imap-codec/tests/trace.rs:1426. -/
example : RoundTrips .command b!"A284 THREAD ORDEREDSUBJECT US-ASCII TEXT \"gewp\"\r\n" := by with_unfolding_all rfl

/-- imap-codec/tests/trace.rs:1427. -/
example : RoundTrips .response b!"* THREAD\r\n" := by with_unfolding_all rfl

/-- imap-codec/tests/trace.rs:1428. -/
example : RoundTrips .response b!"A284 OK THREAD completed\r\n" := by with_unfolding_all rfl

/-- imap-codec/tests/trace.rs:1429. -/
example : RoundTrips .command b!"A285 THREAD REFERENCES UTF-8 SINCE 5-MAR-2000\r\n" := by with_unfolding_all rfl

/-- imap-codec/tests/trace.rs:1430. -/
example : RoundTrips .response
    b!"* THREAD (166)(167)(168)(169)(172)((170)(179))(171)(173)((174)(175)(176)(178)(181)(180))((177)(183)(182)(188 (184)(189))(185 186)(187))(190)(191)(192)(193)((194)(195 196))(197 198)(199)(200 202)(201)(203)(204)(205 206 207)(208)\r\n" :=
  by with_unfolding_all rfl

/-- imap-codec/tests/trace.rs:1431. -/
example : RoundTrips .response b!"A285 OK THREAD completed\r\n" := by with_unfolding_all rfl

/-- imap-codec/src/codec.rs:204. -/
example : Codec.decode .greeting b!"*" = .incomplete := by with_unfolding_all rfl

/-- imap-codec/src/codec.rs:205. -/
example : Codec.decode .greeting b!"* " = .incomplete := by with_unfolding_all rfl

/-- imap-codec/src/codec.rs:206. -/
example : Codec.decode .greeting b!"* O" = .incomplete := by with_unfolding_all rfl

/-- imap-codec/src/codec.rs:207. -/
example : Codec.decode .greeting b!"* OK" = .incomplete := by with_unfolding_all rfl

/-- imap-codec/src/codec.rs:208. -/
example : Codec.decode .greeting b!"* OK " = .incomplete := by with_unfolding_all rfl

/-- imap-codec/src/codec.rs:209. -/
example : Codec.decode .greeting b!"* OK ." = .incomplete := by with_unfolding_all rfl

/-- imap-codec/src/codec.rs:210. -/
example : Codec.decode .greeting b!"* OK .\r" = .incomplete := by with_unfolding_all rfl

/-- imap-codec/src/codec.rs:212. -/
example : Codec.decode .greeting b!"**" = .failed := by with_unfolding_all rfl

/-- imap-codec/src/codec.rs:213. -/
example : Codec.decode .greeting b!"* NO x\r\n" = .failed := by with_unfolding_all rfl

/-- imap-codec/src/codec.rs:232. -/
example : Codec.decode .command b!"a" = .incomplete := by with_unfolding_all rfl

/-- imap-codec/src/codec.rs:233. -/
example : Codec.decode .command b!"a " = .incomplete := by with_unfolding_all rfl

/-- imap-codec/src/codec.rs:234. -/
example : Codec.decode .command b!"a n" = .incomplete := by with_unfolding_all rfl

/-- imap-codec/src/codec.rs:235. -/
example : Codec.decode .command b!"a no" = .incomplete := by with_unfolding_all rfl

/-- imap-codec/src/codec.rs:236. -/
example : Codec.decode .command b!"a noo" = .incomplete := by with_unfolding_all rfl

/-- imap-codec/src/codec.rs:237. -/
example : Codec.decode .command b!"a noop" = .incomplete := by with_unfolding_all rfl

/-- imap-codec/src/codec.rs:238. -/
example : Codec.decode .command b!"a noop\r" = .incomplete := by with_unfolding_all rfl

/-- imap-codec/src/codec.rs:240. -/
example : Codec.decode .command b!"a select {5}\r\n" = .literalFound (some b!"a") 5 (some .sync) := by with_unfolding_all rfl

/-- imap-codec/src/codec.rs:248. -/
example : Codec.decode .command b!"a select {5+}\r\n" = .literalFound (some b!"a") 5 (some .nonSync) := by with_unfolding_all rfl

/-- imap-codec/src/codec.rs:257. -/
example : Codec.decode .command b!"a select {5}\r\nxxx" = .incomplete := by with_unfolding_all rfl

/-- imap-codec/src/codec.rs:262. -/
example : Codec.decode .command b!"* noop\r\n" = .failed := by with_unfolding_all rfl

/-- imap-codec/src/codec.rs:263. -/
example : Codec.decode .command b!"A  noop\r\n" = .failed := by with_unfolding_all rfl

/-- imap-codec/src/codec.rs:282. -/
example : Codec.decode .response b!"" = .incomplete := by with_unfolding_all rfl

/-- imap-codec/src/codec.rs:283. -/
example : Codec.decode .response b!"*" = .incomplete := by with_unfolding_all rfl

/-- imap-codec/src/codec.rs:284. -/
example : Codec.decode .response b!"* " = .incomplete := by with_unfolding_all rfl

/-- imap-codec/src/codec.rs:285. -/
example : Codec.decode .response b!"* S" = .incomplete := by with_unfolding_all rfl

/-- imap-codec/src/codec.rs:286. -/
example : Codec.decode .response b!"* SE" = .incomplete := by with_unfolding_all rfl

/-- imap-codec/src/codec.rs:287. -/
example : Codec.decode .response b!"* SEA" = .incomplete := by with_unfolding_all rfl

/-- imap-codec/src/codec.rs:288. -/
example : Codec.decode .response b!"* SEAR" = .incomplete := by with_unfolding_all rfl

/-- imap-codec/src/codec.rs:289. -/
example : Codec.decode .response b!"* SEARC" = .incomplete := by with_unfolding_all rfl

/-- imap-codec/src/codec.rs:290. -/
example : Codec.decode .response b!"* SEARCH" = .incomplete := by with_unfolding_all rfl

/-- imap-codec/src/codec.rs:291. -/
example : Codec.decode .response b!"* SEARCH " = .incomplete := by with_unfolding_all rfl

/-- imap-codec/src/codec.rs:292. -/
example : Codec.decode .response b!"* SEARCH 1" = .incomplete := by with_unfolding_all rfl

/-- imap-codec/src/codec.rs:293. -/
example : Codec.decode .response b!"* SEARCH 1\r" = .incomplete := by with_unfolding_all rfl

/-- imap-codec/src/codec.rs:298. -/
example : Codec.decode .response b!"* 1 FETCH (RFC822 {5}\r\n" = .literalFound none 5 none := by with_unfolding_all rfl

/-- imap-codec/src/codec.rs:303. -/
example : Codec.decode .response b!"*  search 1 2 3\r\n" = .failed := by with_unfolding_all rfl

/-- imap-codec/src/codec.rs:307. -/
example : Codec.decode .response b!"A search\r\n" = .failed := by with_unfolding_all rfl

/-- imap-codec/src/codec/decode.rs:421. -/
example : Codec.decode .greeting b!"* OK ...\r\n" = .ok b!"" (⟨.ok, none, b!"..."⟩) := by with_unfolding_all rfl

/-- imap-codec/src/codec/decode.rs:428. -/
example : Codec.decode .greeting b!"* ByE .\r\n???" = .ok b!"???" (⟨.bye, none, b!"."⟩) := by with_unfolding_all rfl

/-- imap-codec/src/codec/decode.rs:435. -/
example : Codec.decode .greeting b!"* preaUth x\r\n?" = .ok b!"?" (⟨.preAuth, none, b!"x"⟩) := by with_unfolding_all rfl

/-- imap-codec/src/codec/decode.rs:443. -/
example : Codec.decode .greeting b!"*" = .incomplete := by with_unfolding_all rfl

/-- imap-codec/src/codec/decode.rs:444. -/
example : Codec.decode .greeting b!"* " = .incomplete := by with_unfolding_all rfl

/-- imap-codec/src/codec/decode.rs:445. -/
example : Codec.decode .greeting b!"* O" = .incomplete := by with_unfolding_all rfl

/-- imap-codec/src/codec/decode.rs:446. -/
example : Codec.decode .greeting b!"* OK" = .incomplete := by with_unfolding_all rfl

/-- imap-codec/src/codec/decode.rs:447. -/
example : Codec.decode .greeting b!"* OK " = .incomplete := by with_unfolding_all rfl

/-- imap-codec/src/codec/decode.rs:448. -/
example : Codec.decode .greeting b!"* OK ." = .incomplete := by with_unfolding_all rfl

/-- imap-codec/src/codec/decode.rs:449. -/
example : Codec.decode .greeting b!"* OK .\r" = .incomplete := by with_unfolding_all rfl

/-- imap-codec/src/codec/decode.rs:451. -/
example : Codec.decode .greeting b!"**" = .failed := by with_unfolding_all rfl

/-- imap-codec/src/codec/decode.rs:452. -/
example : Codec.decode .greeting b!"* NO x\r\n" = .failed := by with_unfolding_all rfl

/-- imap-codec/src/codec/decode.rs:471. -/
example : Codec.decode .command b!"a noop\r\n" = .ok b!"" (⟨b!"a", .noop⟩) := by with_unfolding_all rfl

/-- imap-codec/src/codec/decode.rs:475. -/
example : Codec.decode .command b!"a noop\r\n???" = .ok b!"???" (⟨b!"a", .noop⟩) := by with_unfolding_all rfl

/-- imap-codec/src/codec/decode.rs:482. -/
example : Codec.decode .command b!"a select {5}\r\ninbox\r\n" = .ok b!"" (⟨b!"a", .select .inbox []⟩) := by with_unfolding_all rfl

/-- imap-codec/src/codec/decode.rs:497. -/
example : Codec.decode .command b!"a select {5}\r\ninbox\r\nxxx" = .ok b!"xxx" (⟨b!"a", .select .inbox []⟩) := by with_unfolding_all rfl

/-- imap-codec/src/codec/decode.rs:513. -/
example : Codec.decode .command b!"a" = .incomplete := by with_unfolding_all rfl

/-- imap-codec/src/codec/decode.rs:514. -/
example : Codec.decode .command b!"a " = .incomplete := by with_unfolding_all rfl

/-- imap-codec/src/codec/decode.rs:515. -/
example : Codec.decode .command b!"a n" = .incomplete := by with_unfolding_all rfl

/-- imap-codec/src/codec/decode.rs:516. -/
example : Codec.decode .command b!"a no" = .incomplete := by with_unfolding_all rfl

/-- imap-codec/src/codec/decode.rs:517. -/
example : Codec.decode .command b!"a noo" = .incomplete := by with_unfolding_all rfl

/-- imap-codec/src/codec/decode.rs:518. -/
example : Codec.decode .command b!"a noop" = .incomplete := by with_unfolding_all rfl

/-- imap-codec/src/codec/decode.rs:519. -/
example : Codec.decode .command b!"a noop\r" = .incomplete := by with_unfolding_all rfl

/-- imap-codec/src/codec/decode.rs:521. -/
example : Codec.decode .command b!"a select {5}\r\n" = .literalFound (some b!"a") 5 (some .sync) := by with_unfolding_all rfl

/-- imap-codec/src/codec/decode.rs:530. -/
example : Codec.decode .command b!"a select {5}\r\nxxx" = .incomplete := by with_unfolding_all rfl

/-- imap-codec/src/codec/decode.rs:535. -/
example : Codec.decode .command b!"* noop\r\n" = .failed := by with_unfolding_all rfl

/-- imap-codec/src/codec/decode.rs:536. -/
example : Codec.decode .command b!"A  noop\r\n" = .failed := by with_unfolding_all rfl

/-- imap-codec/src/codec/decode.rs:555. -/
example : Codec.decode .authenticateData b!"VGVzdA==\r\n" = .ok b!"" (.continue_ b!"Test") := by with_unfolding_all rfl

/-- imap-codec/src/codec/decode.rs:559. -/
example : Codec.decode .authenticateData b!"VGVzdA==\r\nx" = .ok b!"x" (.continue_ b!"Test") := by with_unfolding_all rfl

/-- imap-codec/src/codec/decode.rs:566. -/
example : Codec.decode .authenticateData b!"*\r\n" = .ok b!"" (.cancel) := by with_unfolding_all rfl

/-- imap-codec/src/codec/decode.rs:570. -/
example : Codec.decode .authenticateData b!"*\r\nx" = .ok b!"x" (.cancel) := by with_unfolding_all rfl

/-- imap-codec/src/codec/decode.rs:575. -/
example : Codec.decode .authenticateData b!"V" = .incomplete := by with_unfolding_all rfl

/-- imap-codec/src/codec/decode.rs:576. -/
example : Codec.decode .authenticateData b!"VG" = .incomplete := by with_unfolding_all rfl

/-- imap-codec/src/codec/decode.rs:577. -/
example : Codec.decode .authenticateData b!"VGV" = .incomplete := by with_unfolding_all rfl

/-- imap-codec/src/codec/decode.rs:581. -/
example : Codec.decode .authenticateData b!"VGVz" = .incomplete := by with_unfolding_all rfl

/-- imap-codec/src/codec/decode.rs:585. -/
example : Codec.decode .authenticateData b!"VGVzd" = .incomplete := by with_unfolding_all rfl

/-- imap-codec/src/codec/decode.rs:589. -/
example : Codec.decode .authenticateData b!"VGVzdA" = .incomplete := by with_unfolding_all rfl

/-- imap-codec/src/codec/decode.rs:593. -/
example : Codec.decode .authenticateData b!"VGVzdA=" = .incomplete := by with_unfolding_all rfl

/-- imap-codec/src/codec/decode.rs:597. -/
example : Codec.decode .authenticateData b!"VGVzdA==" = .incomplete := by with_unfolding_all rfl

/-- imap-codec/src/codec/decode.rs:601. -/
example : Codec.decode .authenticateData b!"VGVzdA==\r" = .incomplete := by with_unfolding_all rfl

/-- imap-codec/src/codec/decode.rs:605. -/
example : Codec.decode .authenticateData b!"VGVzdA==\r\n" = .ok b!"" (.continue_ b!"Test") := by with_unfolding_all rfl

/-- imap-codec/src/codec/decode.rs:610. -/
example : Codec.decode .authenticateData b!"VGVzdA== \r\n" = .failed := by with_unfolding_all rfl

/-- imap-codec/src/codec/decode.rs:614. -/
example : Codec.decode .authenticateData b!" VGVzdA== \r\n" = .failed := by with_unfolding_all rfl

/-- imap-codec/src/codec/decode.rs:618. -/
example : Codec.decode .authenticateData b!" V GVzdA== \r\n" = .failed := by with_unfolding_all rfl

/-- imap-codec/src/codec/decode.rs:622. -/
example : Codec.decode .authenticateData b!" V GVzdA= \r\n" = .failed := by with_unfolding_all rfl

/-- imap-codec/src/codec/decode.rs:644. -/
example : Codec.decode .idleDone b!"done\r\n" = .ok b!"" () := by with_unfolding_all rfl

/-- imap-codec/src/codec/decode.rs:645. -/
example : Codec.decode .idleDone b!"done\r\n?" = .ok b!"?" () := by with_unfolding_all rfl

/-- imap-codec/src/codec/decode.rs:647. -/
example : Codec.decode .idleDone b!"d" = .incomplete := by with_unfolding_all rfl

/-- imap-codec/src/codec/decode.rs:648. -/
example : Codec.decode .idleDone b!"do" = .incomplete := by with_unfolding_all rfl

/-- imap-codec/src/codec/decode.rs:649. -/
example : Codec.decode .idleDone b!"don" = .incomplete := by with_unfolding_all rfl

/-- imap-codec/src/codec/decode.rs:650. -/
example : Codec.decode .idleDone b!"done" = .incomplete := by with_unfolding_all rfl

/-- imap-codec/src/codec/decode.rs:651. -/
example : Codec.decode .idleDone b!"done\r" = .incomplete := by with_unfolding_all rfl

/-- imap-codec/src/codec/decode.rs:653. -/
example : Codec.decode .idleDone b!"donee\r\n" = .failed := by with_unfolding_all rfl

/-- imap-codec/src/codec/decode.rs:654. -/
example : Codec.decode .idleDone b!" done\r\n" = .failed := by with_unfolding_all rfl

/-- imap-codec/src/codec/decode.rs:655. -/
example : Codec.decode .idleDone b!"done \r\n" = .failed := by with_unfolding_all rfl

/-- imap-codec/src/codec/decode.rs:656. -/
example : Codec.decode .idleDone b!" done \r\n" = .failed := by with_unfolding_all rfl

/-- imap-codec/src/codec/decode.rs:675. -/
example : Codec.decode .response b!"" = .incomplete := by with_unfolding_all rfl

/-- imap-codec/src/codec/decode.rs:676. -/
example : Codec.decode .response b!"*" = .incomplete := by with_unfolding_all rfl

/-- imap-codec/src/codec/decode.rs:677. -/
example : Codec.decode .response b!"* " = .incomplete := by with_unfolding_all rfl

/-- imap-codec/src/codec/decode.rs:678. -/
example : Codec.decode .response b!"* S" = .incomplete := by with_unfolding_all rfl

/-- imap-codec/src/codec/decode.rs:679. -/
example : Codec.decode .response b!"* SE" = .incomplete := by with_unfolding_all rfl

/-- imap-codec/src/codec/decode.rs:680. -/
example : Codec.decode .response b!"* SEA" = .incomplete := by with_unfolding_all rfl

/-- imap-codec/src/codec/decode.rs:681. -/
example : Codec.decode .response b!"* SEAR" = .incomplete := by with_unfolding_all rfl

/-- imap-codec/src/codec/decode.rs:682. -/
example : Codec.decode .response b!"* SEARC" = .incomplete := by with_unfolding_all rfl

/-- imap-codec/src/codec/decode.rs:683. -/
example : Codec.decode .response b!"* SEARCH" = .incomplete := by with_unfolding_all rfl

/-- imap-codec/src/codec/decode.rs:684. -/
example : Codec.decode .response b!"* SEARCH " = .incomplete := by with_unfolding_all rfl

/-- imap-codec/src/codec/decode.rs:685. -/
example : Codec.decode .response b!"* SEARCH 1" = .incomplete := by with_unfolding_all rfl

/-- imap-codec/src/codec/decode.rs:686. -/
example : Codec.decode .response b!"* SEARCH 1\r" = .incomplete := by with_unfolding_all rfl

/-- imap-codec/src/codec/decode.rs:691. -/
example : Codec.decode .response b!"* SEARCH 1\r\n" = .ok b!"" (.data (.search [1] none)) := by with_unfolding_all rfl

/-- imap-codec/src/codec/decode.rs:703. -/
example : Codec.decode .response b!"* SEARCH \r\n" = .ok b!"" (.data (.search [] none)) := by with_unfolding_all rfl

/-- imap-codec/src/codec/decode.rs:714. -/
example : Codec.decode .response b!"* SEARCH 1\r\n???" = .ok b!"???" (.data (.search [1] none)) := by with_unfolding_all rfl

/-- imap-codec/src/codec/decode.rs:725. -/
example : Codec.decode .response b!"* 1 FETCH (RFC822 {5}\r\nhello)\r\n" = .ok b!"" (.data (.fetch 1 [.rfc822 (some (.literal ⟨b!"hello", .sync⟩))])) := by with_unfolding_all rfl

/-- imap-codec/src/codec/decode.rs:737. -/
example : Codec.decode .response b!"* 1 FETCH (RFC822 {5}\r\n" = .literalFound none 5 none := by with_unfolding_all rfl

/-- imap-codec/src/codec/decode.rs:742. -/
example : Codec.decode .response b!"*  search 1 2 3\r\n" = .failed := by with_unfolding_all rfl

/-- imap-codec/src/codec/decode.rs:748. -/
example : Codec.decode .response b!"A search\r\n" = .failed := by with_unfolding_all rfl

/-- imap-codec/tests/trace.rs:1266 `test_response_status_preauth`. -/
example : RoundTrips .greeting b!"* PREAUTH IMAP4rev1 server logged in as Smith\r\n" := by with_unfolding_all rfl

/-- imap-codec/tests/trace.rs:1388 `test_trace_rfc2088`. -/
example : Codec.decode .command b!"A001 LOGIN {11+}\r\nFRED FOOBAR {7+}\r\nfat man\r\n" =
    .ok [] ⟨b!"A001", .login (.string (.literal ⟨b!"FRED FOOBAR", .nonSync⟩)) (.string (.literal ⟨b!"fat man", .nonSync⟩))⟩ := by
  with_unfolding_all rfl

end

end Imap.Conformance
