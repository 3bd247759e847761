import Verif.Py.Value
import Verif.Model.Patterns
/-!
# Model of the field and model validators

One definition per validator. `true` means that the validator returns its
argument, `false` that it raises a ValueError. Field validators get the value
of the field, model validators (`mode="after"`) the instance.
-/
namespace Verif.Fields
open Verif Verif.Regex Verif.Patterns

/-- `\{[^}]+\}`, models/channel.py:190. -/
def expressionRegex : Regex := .seq (lit '{') (.seq (plus (· != '}')) (lit '}'))

/-- `Channel.validate_parameters`, models/channel.py:173-197. -/
def channelParameters (self : V) : Bool :=
  if (self.attr p!"parameters").isNone then true
  else match self.attr p!"address" with
    | .str a => isSearch expressionRegex a
    | _ => false

/-- `MessageExample.validate_headers_or_payload`, models/message.py:59-72. -/
def headersOrPayload (self : V) : Bool :=
  !((self.attr p!"headers").isNone && (self.attr p!"payload").isNone)

/-- `CorrelationID.validate_runtime_expression`, models/security.py:46-59. -/
def runtimeExpression : V → Bool
  | .str location => Str.startsWith location p!"$message."
  | _ => false

/-- `OAuthFlows._validate_implicit_flow`, models/security.py:157-160. -/
def implicitFlow (self : V) : Bool :=
  !(!(self.attr p!"implicit").isNone && ((self.attr p!"implicit").attr p!"authorization_url").isNone)
/-- `OAuthFlows._validate_password_flow`, models/security.py:162-165. -/
def passwordFlow (self : V) : Bool :=
  !(!(self.attr p!"password").isNone && ((self.attr p!"password").attr p!"token_url").isNone)
/-- `OAuthFlows._validate_client_credentials_flow`, models/security.py:167-173. -/
def clientCredentialsFlow (self : V) : Bool :=
  !(!(self.attr p!"client_credentials").isNone && ((self.attr p!"client_credentials").attr p!"token_url").isNone)
/-- `OAuthFlows._validate_authorization_code_flow`, models/security.py:175-183. -/
def authorizationCodeFlow (self : V) : Bool :=
  if !(self.attr p!"authorization_code").isNone then
    if ((self.attr p!"authorization_code").attr p!"authorization_url").isNone then false
    else if ((self.attr p!"authorization_code").attr p!"token_url").isNone then false
    else true
  else true
/-- `OAuthFlows.validate_oauth_flows_requirements`, models/security.py:143-155. -/
def oauthFlows (self : V) : Bool :=
  implicitFlow self && passwordFlow self && clientCredentialsFlow self && authorizationCodeFlow self

/-- `v == s` for a string literal.
Used for models/security.py:326-375, bindings/amqp.py:137-157, bindings/solace.py:178-191, bindings/ibmmq.py:257-269,341-351. -/
def isStr (v : V) (s : Str) : Bool :=
  match v with
  | .str t => t == s
  | _ => false

/-- `SecurityScheme._validate_api_key_requirements`, models/security.py:326-332. -/
def apiKey (self : V) : Bool :=
  if isStr (self.attr p!"type_") p!"apiKey" then
    if (self.attr p!"in_").isNone then false
    else if !(isStr (self.attr p!"in_") p!"user" || isStr (self.attr p!"in_") p!"password") then false
    else true
  else true
/-- `SecurityScheme._validate_http_api_key_requirements`, models/security.py:334-344. -/
def httpApiKey (self : V) : Bool :=
  if isStr (self.attr p!"type_") p!"httpApiKey" then
    if (self.attr p!"name").isNone then false
    else if (self.attr p!"in_").isNone then false
    else if !(isStr (self.attr p!"in_") p!"query" || isStr (self.attr p!"in_") p!"header" ||
      isStr (self.attr p!"in_") p!"cookie") then false
    else true
  else true
/-- `SecurityScheme._validate_http_requirements`, models/security.py:346-349. -/
def http (self : V) : Bool :=
  !(isStr (self.attr p!"type_") p!"http" && (self.attr p!"scheme").isNone)
/-- `SecurityScheme._validate_bearer_format_requirements`, models/security.py:351-358. -/
def bearerFormat (self : V) : Bool :=
  !(!(self.attr p!"bearer_format").isNone &&
    (!isStr (self.attr p!"type_") p!"http" || !isStr (self.attr p!"scheme") p!"bearer"))
/-- `SecurityScheme._validate_oauth2_requirements`, models/security.py:360-363. -/
def oauth2 (self : V) : Bool :=
  !(isStr (self.attr p!"type_") p!"oauth2" && (self.attr p!"flows").isNone)
/-- `SecurityScheme._validate_openid_connect_requirements`, models/security.py:365-368. -/
def openIdConnect (self : V) : Bool :=
  !(isStr (self.attr p!"type_") p!"openIdConnect" && (self.attr p!"open_id_connect_url").isNone)
/-- `SecurityScheme._validate_scopes_requirements`, models/security.py:370-375. -/
def scopes (self : V) : Bool :=
  !(!(self.attr p!"scopes").isNone &&
    !(isStr (self.attr p!"type_") p!"oauth2" || isStr (self.attr p!"type_") p!"openIdConnect"))
/-- `SecurityScheme.validate_security_scheme_dependencies`, models/security.py:308-324. -/
def securityScheme (self : V) : Bool :=
  apiKey self && bearerFormat self && httpApiKey self && http self && oauth2 self && openIdConnect self &&
    scopes self

/-- `AMQPChannelBindings.validate_exchange_queue_depending_on_is`, models/bindings/amqp.py:137-155. -/
def amqpChannel (self : V) : Bool :=
  if isStr (self.attr p!"is_") p!"routingKey" then
    if (self.attr p!"exchange").isNone then false
    else if !(self.attr p!"queue").isNone then false
    else true
  else if isStr (self.attr p!"is_") p!"queue" then
    if (self.attr p!"queue").isNone then false
    else if !(self.attr p!"exchange").isNone then false
    else true
  else true

/-- `SolaceDestination.validate_destination_fields`, models/bindings/solace.py:178-191. -/
def solaceDestination (self : V) : Bool :=
  if isStr (self.attr p!"destination_type") p!"queue" then
    if (self.attr p!"queue").isNone then false
    else if !(self.attr p!"topic").isNone then false
    else true
  else if isStr (self.attr p!"destination_type") p!"topic" then
    if (self.attr p!"topic").isNone then false
    else if !(self.attr p!"queue").isNone then false
    else true
  else true

/-- `IBMMQChannelBindings.validate_queue_topic_constraints`, models/bindings/ibmmq.py:257-269. -/
def ibmmqChannel (self : V) : Bool :=
  if !(self.attr p!"queue").isNone && !(self.attr p!"topic").isNone then false
  else if isStr (self.attr p!"destination_type") p!"queue" && (self.attr p!"queue").isNone then false
  else true

/-- `IBMMQMessageBindings.validate_headers_constraints`, models/bindings/ibmmq.py:341-348. -/
def ibmmqMessage (self : V) : Bool :=
  !((isStr (self.attr p!"type") p!"string" || isStr (self.attr p!"type") p!"jms") &&
    !(self.attr p!"headers").isNone)

/-- `KafkaServerBindings.validate_schema_registry_vendor_dependency`, models/bindings/kafka.py:55-60. -/
def kafkaServer (self : V) : Bool :=
  !((self.attr p!"schema_registry_url").isNone && !(self.attr p!"schema_registry_vendor").isNone)

/-- `KafkaChannelBindings.validate_partitions`, `.validate_replicas`, models/bindings/kafka.py:196-210. -/
def positive : V → Bool
  | .int i => !(decide (i ≤ 0))
  | _ => true

/-- `AMQPOperationBindings.validate_expiration`, models/bindings/amqp.py:229-235;
`IBMMQMessageBindings.validate_expiry`, models/bindings/ibmmq.py:332-339. -/
def notNegative : V → Bool
  | .int i => !(decide (i < 0))
  | _ => true

/-- `IBMMQServerBindings.validate_heart_beat_interval`, models/bindings/ibmmq.py:100-109. -/
def heartBeat : V → Bool
  | .int i => !(decide (i < 0) || decide (i > 999999))
  | _ => true

/-- `IBMMQChannelBindings.validate_max_msg_length`, models/bindings/ibmmq.py:248-255. -/
def maxMsgLength : V → Bool
  | .int i => !(decide (i < 0) || decide (i > 104857600))
  | _ => true

/-- `SolaceOperationBindings.validate_priority`, models/bindings/solace.py:239-245. (A `bool` is
an `int` for `isinstance`, but the field's type has turned it into an `int` before.) -/
def solacePriority : V → Bool
  | .int i => !(decide (i < 0) || decide (i > 255))
  | _ => true

end Verif.Fields
