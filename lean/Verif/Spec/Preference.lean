/-
How strong the mechanisms of the crate are, by their names alone, and what the documentation says
about them.
-/
import Verif.Model.Session
import Verif.Model.Registry

namespace Rsasl.Spec

/-- The mechanism sends the password itself (src/mechanisms/mod.rs:62-66, 76-80). -/
def plaintextNames : List Bytes := [b!"PLAIN", b!"LOGIN"]

/-- Mechanisms that prove knowledge of the password, with the hash SHA-1. -/
def sha1Names : List Bytes := [b!"SCRAM-SHA-1", b!"SCRAM-SHA-1-PLUS"]

/-- The same with a hash of the SHA-2 family. -/
def sha2Names : List Bytes :=
  [b!"SCRAM-SHA-256", b!"SCRAM-SHA-256-PLUS", b!"SCRAM-SHA-512", b!"SCRAM-SHA-512-PLUS"]

/-- All SCRAM mechanisms. -/
def scramNames : List Bytes := sha1Names ++ sha2Names

/-- The order of preference documented at `SASLConfig::with_credentials`, src/config.rs:121-127.
SCRAM-SHA-512 is not in the documented list; its place is the one the code gives it. -/
def documentedOrder : List Bytes :=
  [b!"SCRAM-SHA-256", b!"SCRAM-SHA-512", b!"SCRAM-SHA-1", b!"PLAIN", b!"LOGIN"]

/-- The order of preference of a client with the default registry and the default preference: by
strength, and bearer tokens before a password in the clear. -/
def defaultOrder : List Bytes :=
  [b!"SCRAM-SHA-256", b!"SCRAM-SHA-512", b!"SCRAM-SHA-1", b!"OAUTHBEARER", b!"XOAUTH2", b!"PLAIN",
   b!"LOGIN", b!"EXTERNAL", b!"ANONYMOUS"]

/-- What the registrations of the specifications say: name, who speaks first, and the
implementations. The first of an entry's two implementations is the client's; the second the
server's, given whether the server's configuration has the `-PLUS` mechanism of the same hash. -/
structure Registration where
  name : Bytes
  first : Side
  client : Auth
  server : Bool → Auth

/-- RFC 4616, draft-murchison-sasl-login, RFC 4422 appendix A, RFC 4505, Google's XOAUTH2, RFC 7628,
RFC 4752, RFC 5802, RFC 7677. -/
def registrations : List Registration :=
  [⟨b!"PLAIN", .client, .plain, fun _ => .plain⟩,
   ⟨b!"LOGIN", .server, .login, fun _ => .login⟩,
   ⟨b!"EXTERNAL", .client, .external, fun _ => .external⟩,
   ⟨b!"ANONYMOUS", .client, .anonymous, fun _ => .anonymous⟩,
   ⟨b!"XOAUTH2", .client, .xoauth2, fun _ => .xoauth2⟩,
   ⟨b!"OAUTHBEARER", .client, .oauthbearer, fun _ => .oauthbearer⟩,
   ⟨b!"GSSAPI", .client, .gssapi, fun _ => .gssapi⟩,
   ⟨b!"SCRAM-SHA-1", .client, .scramClient .sha1 true, .scramServer .sha1⟩,
   ⟨b!"SCRAM-SHA-256", .client, .scramClient .sha256 true, .scramServer .sha256⟩,
   ⟨b!"SCRAM-SHA-512", .client, .scramClient .sha512 true, .scramServer .sha512⟩,
   ⟨b!"SCRAM-SHA-1-PLUS", .client, .scramClientPlus .sha1, fun _ => .scramServerPlus .sha1⟩,
   ⟨b!"SCRAM-SHA-256-PLUS", .client, .scramClientPlus .sha256, fun _ => .scramServerPlus .sha256⟩,
   ⟨b!"SCRAM-SHA-512-PLUS", .client, .scramClientPlus .sha512, fun _ => .scramServerPlus .sha512⟩]

end Rsasl.Spec
