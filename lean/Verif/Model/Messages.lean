import Verif.Model.Pyd
/-!
# Model of the texts of the package's own validators

The text of the `ValueError` a validator raises, `none` if it does not raise. pydantic makes an entry of type `value_error`
of it, and puts `Value error, ` before the text. One definition per validator, as in `Verif/Model/Fields.lean`.
-/
namespace Verif.Messages
open Verif Verif.Gen Verif.Fields Verif.Regex Verif.Patterns
open Verif.Pyd (Env)

/-- models/base_models.py:49-53. -/
def extensionText (key : Str) : Str :=
  p!"Field '" ++ key ++ p!"' does not match specification extension pattern. " ++
    p!"Extensions must start with 'x-' and contain only word " ++
    p!"characters, digits, dots, hyphens, and underscores."
/-- `ExtendableBaseModel.validate_extensions`, models/base_models.py:35-54. -/
def extensions (U : Uni) : List Str → Option Str
  | [] => none
  | k :: ks => if isMatch (extensionRegex U) k then extensions U ks else some (extensionText k)

/-- models/helpers.py:35-38. -/
def keyText (key : Str) : Str :=
  p!"Field '" ++ key ++ p!"' does not match patterned object key pattern. " ++
    p!"Keys must contain letters, digits, hyphens, and underscores."
/-- `PatternedRootModel.validate_patterned_keys`, models/base_models.py:108-121, models/helpers.py:19-38. -/
def patternedKeys : List Str → Option Str
  | [] => none
  | k :: ks => if patternedKey k then patternedKeys ks else some (keyText k)

/-- `EmailStr._validate_email` (after the check that the value is a string), models/helpers.py:51-59. -/
def email : V → Option Str
  | .str s => if validateEmail s then none else some p!"Invalid email format"
  | _ => none

/-- `AsyncAPI3.validate_asyncapi_version`, models/asyncapi.py:255-275. `int` may raise a `ValueError` of its own: its text
is not modelled. -/
def version (U : Uni) (limit : Option Nat) (version : Str) : Option Str :=
  if isMatch (versionRegex U) version then
    match Str.split '.' version with
    | major :: _ => match intOf U limit major with
      | some m => if m == 3 then none
        else some (p!"asyncapi version " ++ version ++ p!" is not supported. " ++
          p!"This application only supports AsyncAPI 3.x.x versions")
      | none => none
    | [] => none
  else some (p!"asyncapi must be in semantic versioning format: " ++ p!"major.minor.patch[-suffix]")

/-- `if bad: raise ValueError(text)`, e.g. models/message.py:68-71. -/
def orRaise (good : Bool) (text : Str) : Option Str := if good then none else some text

/-- The field validators of a class: the text for field `name` with value `v`.
models/security.py:46-59, asyncapi.py:255-275, bindings/amqp.py:229-235, solace.py:239-245, ibmmq.py:100-109,248-255,332-339,
kafka.py:196-210. -/
def field (E : Env) (c : Cls) (name : Str) (v : V) : Option Str :=
  match c with
  | .AsyncAPI3 => if name = p!"asyncapi" then
      match v with
      | .str s => version E.U E.digits s
      | _ => none
    else none
  | .CorrelationID => if name = p!"location" then
      orRaise (runtimeExpression v) p!"location must be a runtime expression starting with '$message.'" else none
  | .AMQPOperationBindings => if name = p!"expiration" then
      orRaise (notNegative v) p!"expiration must be greater than or equal to zero" else none
  | .SolaceOperationBindings => if name = p!"priority" then
      orRaise (solacePriority v) p!"priority must be between 0 and 255" else none
  | .IBMMQServerBindings => if name = p!"heart_beat_interval" then
      orRaise (heartBeat v) p!"heartBeatInterval MUST be 0-999999" else none
  | .IBMMQChannelBindings => if name = p!"max_msg_length" then
      orRaise (maxMsgLength v) p!"maxMsgLength MUST be 0-104,857,600 bytes (100 MB)" else none
  | .IBMMQMessageBindings => if name = p!"expiry" then
      orRaise (notNegative v) p!"expiry value MUST be either zero (unlimited) or greater than zero" else none
  | .KafkaChannelBindings =>
    if name = p!"partitions" then orRaise (positive v) p!"partitions must be positive"
    else if name = p!"replicas" then orRaise (positive v) p!"replicas must be positive" else none
  | _ => none

/-- `Channel.validate_parameters`, models/channel.py:173-198. (An address that is neither a string nor `None`, which
the type of the field rules out, makes `search` raise a TypeError.) -/
def channel (self : V) : Option Str :=
  if (self.attr p!"parameters").isNone then none
  else match self.attr p!"address" with
    | .str a => orRaise (isSearch expressionRegex a)
        (p!"parameters must not be provided when address does not contain " ++ p!"Channel Address Expressions")
    | .none => some p!"parameters must not be provided when address is null or absent"
    | _ => none

/-- `MessageExample.validate_headers_or_payload`, models/message.py:59-72. -/
def messageExample (self : V) : Option Str :=
  orRaise (headersOrPayload self) p!"MessageExample MUST contain either headers and/or payload fields"

/-- `OAuthFlows._validate_authorization_code_flow`, models/security.py:175-183. -/
def authorizationCodeFlow (self : V) : Option Str :=
  if !(self.attr p!"authorization_code").isNone then
    if ((self.attr p!"authorization_code").attr p!"authorization_url").isNone then
      some p!"authorizationUrl is required for authorizationCode flow"
    else if ((self.attr p!"authorization_code").attr p!"token_url").isNone then
      some p!"tokenUrl is required for authorizationCode flow"
    else none
  else none
/-- `OAuthFlows.validate_oauth_flows_requirements`, models/security.py:143-183: the first that raises. -/
def oauthFlows (self : V) : Option Str :=
  (orRaise (implicitFlow self) p!"authorizationUrl is required for implicit flow").or
  ((orRaise (passwordFlow self) p!"tokenUrl is required for password flow").or
  ((orRaise (clientCredentialsFlow self) p!"tokenUrl is required for clientCredentials flow").or
  (authorizationCodeFlow self)))

/-- `SecurityScheme._validate_api_key_requirements`, models/security.py:326-332. -/
def apiKey (self : V) : Option Str :=
  if isStr (self.attr p!"type_") p!"apiKey" then
    if (self.attr p!"in_").isNone then some p!"in is required for apiKey type"
    else if !(isStr (self.attr p!"in_") p!"user" || isStr (self.attr p!"in_") p!"password") then
      some p!"in must be 'user' or 'password' for apiKey type"
    else none
  else none
/-- `SecurityScheme._validate_http_api_key_requirements`, models/security.py:334-344. -/
def httpApiKey (self : V) : Option Str :=
  if isStr (self.attr p!"type_") p!"httpApiKey" then
    if (self.attr p!"name").isNone then some p!"name is required for httpApiKey type"
    else if (self.attr p!"in_").isNone then some p!"in is required for httpApiKey type"
    else if !(isStr (self.attr p!"in_") p!"query" || isStr (self.attr p!"in_") p!"header" ||
      isStr (self.attr p!"in_") p!"cookie") then
      some p!"in must be 'query', 'header', or 'cookie' for httpApiKey type"
    else none
  else none
/-- `SecurityScheme.validate_security_scheme_dependencies`, models/security.py:308-375: the first that raises. -/
def securityScheme (self : V) : Option Str :=
  (apiKey self).or
  ((orRaise (bearerFormat self) p!"bearerFormat can only be used with http type and bearer scheme").or
  ((httpApiKey self).or
  ((orRaise (http self) p!"scheme is required for http type").or
  ((orRaise (oauth2 self) p!"flows is required for oauth2 type").or
  ((orRaise (openIdConnect self) p!"openIdConnectUrl is required for openIdConnect type").or
  (orRaise (scopes self) p!"scopes can only be used with oauth2 or openIdConnect type"))))))

/-- `AMQPChannelBindings.validate_exchange_queue_depending_on_is`, models/bindings/amqp.py:137-155. -/
def amqpChannel (self : V) : Option Str :=
  if isStr (self.attr p!"is_") p!"routingKey" then
    if (self.attr p!"exchange").isNone then some p!"exchange must be provided when is='routingKey'"
    else if !(self.attr p!"queue").isNone then some p!"queue must not be provided when is='routingKey'"
    else none
  else if isStr (self.attr p!"is_") p!"queue" then
    if (self.attr p!"queue").isNone then some p!"queue must be provided when is='queue'"
    else if !(self.attr p!"exchange").isNone then some p!"exchange must not be provided when is='queue'"
    else none
  else none

/-- `SolaceDestination.validate_destination_fields`, models/bindings/solace.py:178-191. -/
def solaceDestination (self : V) : Option Str :=
  if isStr (self.attr p!"destination_type") p!"queue" then
    if (self.attr p!"queue").isNone then some p!"queue required for destinationType 'queue'"
    else if !(self.attr p!"topic").isNone then some p!"topic not allowed for destinationType 'queue'"
    else none
  else if isStr (self.attr p!"destination_type") p!"topic" then
    if (self.attr p!"topic").isNone then some p!"topic required for destinationType 'topic'"
    else if !(self.attr p!"queue").isNone then some p!"queue not allowed for destinationType 'topic'"
    else none
  else none

/-- `IBMMQChannelBindings.validate_queue_topic_constraints`, models/bindings/ibmmq.py:257-269. -/
def ibmmqChannel (self : V) : Option Str :=
  if !(self.attr p!"queue").isNone && !(self.attr p!"topic").isNone then
    some p!"queue and topic fields MUST NOT coexist within a channel binding"
  else if isStr (self.attr p!"destination_type") p!"queue" && (self.attr p!"queue").isNone then
    some p!"queue must be provided when destinationType='queue'"
  else none

/-- The model validators of a class, apart from those of its base class and `run_extra_processors`.
models/channel.py:173-198, message.py:59-72, security.py:143-183,308-375, bindings/amqp.py:137-155, solace.py:178-191,
ibmmq.py:257-269,341-348, kafka.py:55-60. -/
def ofClass (c : Cls) (self : V) : Option Str :=
  match c with
  | .Channel => channel self
  | .MessageExample => messageExample self
  | .OAuthFlows => oauthFlows self
  | .SecurityScheme => securityScheme self
  | .AMQPChannelBindings => amqpChannel self
  | .SolaceDestination => solaceDestination self
  | .IBMMQChannelBindings => ibmmqChannel self
  | .IBMMQMessageBindings => orRaise (ibmmqMessage self) p!"headers MUST NOT be specified if type = 'string' or 'jms'"
  | .KafkaServerBindings => orRaise (kafkaServer self) p!"schemaRegistryVendor requires schemaRegistryUrl"
  | _ => none

/-- The model validators of the base classes, models/base_models.py:35-54,108-121. -/
def ofBase (U : Uni) (c : Cls) (self : V) : Option Str :=
  match (classDef c).kind with
  | .extendable => extensions U (self.extras.map (·.1))
  | .patterned => match self.attr p!"root" with
    | .dict d => patternedKeys (d.map (·.1))
    | _ => none
  | _ => none

/-- The `mode="after"` validators of a class, those of the base class first. Not the text of a processor that
raises (models/asyncapi.py:277-296), which is not the package's. models/base_models.py:35-54,108-121. -/
def ofObject (U : Uni) (c : Cls) (self : V) : Option Str := (ofBase U c self).or (ofClass c self)

end Verif.Messages
