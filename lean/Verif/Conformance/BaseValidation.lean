import Verif.Conformance.Support

/-! Translated from tests/test_base_validation.py by tools/gen_conformance.py. -/

set_option maxRecDepth 100000
set_option linter.unusedVariables false
namespace Verif.Conformance
open Verif Verif.Gen Verif.Pyd

/-- `json_specs/valid/apache_kafka.json`, tests/test_base_validation.py:27 -/
example : (do
  discard (load .AsyncAPI3 (.dict [(p!"asyncapi", (.str p!"3.0.0")), (p!"info", (.dict [(p!"title", (.str p!"Streetlights Kafka API")), (p!"version", (.str p!"1.0.0")), (p!"description", (.str p!"The Smartylighting Streetlights API allows you to remotely manage the city\nlights.\n### Check out its awesome features:\n\n* Turn a specific streetlight on/off 🌃  \n* Dim a specific streetlight 😎\n* Receive real-time information about environmental lighting conditions 📈")), (p!"license", (.dict [(p!"name", (.str p!"Apache 2.0")), (p!"url", (.str p!"https://www.apache.org/licenses/LICENSE-2.0"))]))])), (p!"defaultContentType", (.str p!"application/json")), (p!"servers", (.dict [(p!"scram-connections", (.dict [(p!"host", (.str p!"test.mykafkacluster.org:18092")), (p!"protocol", (.str p!"kafka-secure")), (p!"description", (.str p!"Test broker secured with scramSha256")), (p!"security", (.list [(.dict [(p!"$ref", (.str p!"#/components/securitySchemes/saslScram"))])])), (p!"tags", (.list [(.dict [(p!"name", (.str p!"env:test-scram")), (p!"description", (.str p!"This environment is meant for running internal tests through scramSha256"))]), (.dict [(p!"name", (.str p!"kind:remote")), (p!"description", (.str p!"This server is a remote server. Not exposed by the application"))]), (.dict [(p!"name", (.str p!"visibility:private")), (p!"description", (.str p!"This resource is private and only available to certain users"))])]))])), (p!"mtls-connections", (.dict [(p!"host", (.str p!"test.mykafkacluster.org:28092")), (p!"protocol", (.str p!"kafka-secure")), (p!"description", (.str p!"Test broker secured with X509")), (p!"security", (.list [(.dict [(p!"$ref", (.str p!"#/components/securitySchemes/certs"))])])), (p!"tags", (.list [(.dict [(p!"name", (.str p!"env:test-mtls")), (p!"description", (.str p!"This environment is meant for running internal tests through mtls"))]), (.dict [(p!"name", (.str p!"kind:remote")), (p!"description", (.str p!"This server is a remote server. Not exposed by the application"))]), (.dict [(p!"name", (.str p!"visibility:private")), (p!"description", (.str p!"This resource is private and only available to certain users"))])]))]))])), (p!"channels", (.dict [(p!"lightingMeasured", (.dict [(p!"address", (.str p!"smartylighting.streetlights.1.0.event.{streetlightId}.lighting.measured")), (p!"messages", (.dict [(p!"lightMeasured", (.dict [(p!"$ref", (.str p!"#/components/messages/lightMeasured"))]))])), (p!"description", (.str p!"The topic on which measured values may be produced and consumed.")), (p!"parameters", (.dict [(p!"streetlightId", (.dict [(p!"$ref", (.str p!"#/components/parameters/streetlightId"))]))]))])), (p!"lightTurnOn", (.dict [(p!"address", (.str p!"smartylighting.streetlights.1.0.action.{streetlightId}.turn.on")), (p!"messages", (.dict [(p!"turnOn", (.dict [(p!"$ref", (.str p!"#/components/messages/turnOnOff"))]))])), (p!"parameters", (.dict [(p!"streetlightId", (.dict [(p!"$ref", (.str p!"#/components/parameters/streetlightId"))]))]))])), (p!"lightTurnOff", (.dict [(p!"address", (.str p!"smartylighting.streetlights.1.0.action.{streetlightId}.turn.off")), (p!"messages", (.dict [(p!"turnOff", (.dict [(p!"$ref", (.str p!"#/components/messages/turnOnOff"))]))])), (p!"parameters", (.dict [(p!"streetlightId", (.dict [(p!"$ref", (.str p!"#/components/parameters/streetlightId"))]))]))])), (p!"lightsDim", (.dict [(p!"address", (.str p!"smartylighting.streetlights.1.0.action.{streetlightId}.dim")), (p!"messages", (.dict [(p!"dimLight", (.dict [(p!"$ref", (.str p!"#/components/messages/dimLight"))]))])), (p!"parameters", (.dict [(p!"streetlightId", (.dict [(p!"$ref", (.str p!"#/components/parameters/streetlightId"))]))]))]))])), (p!"operations", (.dict [(p!"receiveLightMeasurement", (.dict [(p!"action", (.str p!"receive")), (p!"channel", (.dict [(p!"$ref", (.str p!"#/channels/lightingMeasured"))])), (p!"summary", (.str p!"Inform about environmental lighting conditions of a particular streetlight.")), (p!"traits", (.list [(.dict [(p!"$ref", (.str p!"#/components/operationTraits/kafka"))])])), (p!"messages", (.list [(.dict [(p!"$ref", (.str p!"#/channels/lightingMeasured/messages/lightMeasured"))])]))])), (p!"turnOn", (.dict [(p!"action", (.str p!"send")), (p!"channel", (.dict [(p!"$ref", (.str p!"#/channels/lightTurnOn"))])), (p!"traits", (.list [(.dict [(p!"$ref", (.str p!"#/components/operationTraits/kafka"))])])), (p!"messages", (.list [(.dict [(p!"$ref", (.str p!"#/channels/lightTurnOn/messages/turnOn"))])]))])), (p!"turnOff", (.dict [(p!"action", (.str p!"send")), (p!"channel", (.dict [(p!"$ref", (.str p!"#/channels/lightTurnOff"))])), (p!"traits", (.list [(.dict [(p!"$ref", (.str p!"#/components/operationTraits/kafka"))])])), (p!"messages", (.list [(.dict [(p!"$ref", (.str p!"#/channels/lightTurnOff/messages/turnOff"))])]))])), (p!"dimLight", (.dict [(p!"action", (.str p!"send")), (p!"channel", (.dict [(p!"$ref", (.str p!"#/channels/lightsDim"))])), (p!"traits", (.list [(.dict [(p!"$ref", (.str p!"#/components/operationTraits/kafka"))])])), (p!"messages", (.list [(.dict [(p!"$ref", (.str p!"#/channels/lightsDim/messages/dimLight"))])]))]))])), (p!"components", (.dict [(p!"messages", (.dict [(p!"lightMeasured", (.dict [(p!"name", (.str p!"lightMeasured")), (p!"title", (.str p!"Light measured")), (p!"summary", (.str p!"Inform about environmental lighting conditions of a particular streetlight.")), (p!"contentType", (.str p!"application/json")), (p!"traits", (.list [(.dict [(p!"$ref", (.str p!"#/components/messageTraits/commonHeaders"))])])), (p!"payload", (.dict [(p!"$ref", (.str p!"#/components/schemas/lightMeasuredPayload"))]))])), (p!"turnOnOff", (.dict [(p!"name", (.str p!"turnOnOff")), (p!"title", (.str p!"Turn on/off")), (p!"summary", (.str p!"Command a particular streetlight to turn the lights on or off.")), (p!"traits", (.list [(.dict [(p!"$ref", (.str p!"#/components/messageTraits/commonHeaders"))])])), (p!"payload", (.dict [(p!"$ref", (.str p!"#/components/schemas/turnOnOffPayload"))]))])), (p!"dimLight", (.dict [(p!"name", (.str p!"dimLight")), (p!"title", (.str p!"Dim light")), (p!"summary", (.str p!"Command a particular streetlight to dim the lights.")), (p!"traits", (.list [(.dict [(p!"$ref", (.str p!"#/components/messageTraits/commonHeaders"))])])), (p!"payload", (.dict [(p!"$ref", (.str p!"#/components/schemas/dimLightPayload"))]))]))])), (p!"schemas", (.dict [(p!"lightMeasuredPayload", (.dict [(p!"type", (.str p!"object")), (p!"properties", (.dict [(p!"lumens", (.dict [(p!"type", (.str p!"integer")), (p!"minimum", (.int (0))), (p!"description", (.str p!"Light intensity measured in lumens."))])), (p!"sentAt", (.dict [(p!"$ref", (.str p!"#/components/schemas/sentAt"))]))]))])), (p!"turnOnOffPayload", (.dict [(p!"type", (.str p!"object")), (p!"properties", (.dict [(p!"command", (.dict [(p!"type", (.str p!"string")), (p!"enum", (.list [(.str p!"on"), (.str p!"off")])), (p!"description", (.str p!"Whether to turn on or off the light."))])), (p!"sentAt", (.dict [(p!"$ref", (.str p!"#/components/schemas/sentAt"))]))]))])), (p!"dimLightPayload", (.dict [(p!"type", (.str p!"object")), (p!"properties", (.dict [(p!"percentage", (.dict [(p!"type", (.str p!"integer")), (p!"description", (.str p!"Percentage to which the light should be dimmed to.")), (p!"minimum", (.int (0))), (p!"maximum", (.int (100)))])), (p!"sentAt", (.dict [(p!"$ref", (.str p!"#/components/schemas/sentAt"))]))]))])), (p!"sentAt", (.dict [(p!"type", (.str p!"string")), (p!"format", (.str p!"date-time")), (p!"description", (.str p!"Date and time when the message was sent."))]))])), (p!"securitySchemes", (.dict [(p!"saslScram", (.dict [(p!"type", (.str p!"scramSha256")), (p!"description", (.str p!"Provide your username and password for SASL/SCRAM authentication"))])), (p!"certs", (.dict [(p!"type", (.str p!"X509")), (p!"description", (.str p!"Download the certificate files from service provider"))]))])), (p!"parameters", (.dict [(p!"streetlightId", (.dict [(p!"description", (.str p!"The ID of the streetlight."))]))])), (p!"messageTraits", (.dict [(p!"commonHeaders", (.dict [(p!"headers", (.dict [(p!"type", (.str p!"object")), (p!"properties", (.dict [(p!"my-app-header", (.dict [(p!"type", (.str p!"integer")), (p!"minimum", (.int (0))), (p!"maximum", (.int (100)))]))]))]))]))])), (p!"operationTraits", (.dict [(p!"kafka", (.dict [(p!"bindings", (.dict [(p!"kafka", (.dict [(p!"clientId", (.dict [(p!"type", (.str p!"string")), (p!"enum", (.list [(.str p!"my-app-id")]))]))]))]))]))]))]))])) : Option Unit).isSome = true := by decide +kernel

/-- `json_specs/valid/gitter.json`, tests/test_base_validation.py:27 -/
example : (do
  discard (load .AsyncAPI3 (.dict [(p!"asyncapi", (.str p!"3.0.0")), (p!"id", (.str p!"tag:stream.gitter.im,2022:api")), (p!"info", (.dict [(p!"title", (.str p!"Gitter Streaming API")), (p!"version", (.str p!"1.0.0"))])), (p!"servers", (.dict [(p!"production", (.dict [(p!"host", (.str p!"stream.gitter.im")), (p!"pathname", (.str p!"/v1")), (p!"protocol", (.str p!"https")), (p!"protocolVersion", (.str p!"1.1")), (p!"security", (.list [(.dict [(p!"$ref", (.str p!"#/components/securitySchemes/httpBearerToken"))])]))]))])), (p!"channels", (.dict [(p!"rooms", (.dict [(p!"address", (.str p!"/rooms/{roomId}/{resource}")), (p!"messages", (.dict [(p!"chatMessage", (.dict [(p!"$ref", (.str p!"#/components/messages/chatMessage"))])), (p!"heartbeat", (.dict [(p!"$ref", (.str p!"#/components/messages/heartbeat"))]))])), (p!"parameters", (.dict [(p!"roomId", (.dict [(p!"description", (.str p!"Id of the Gitter room.")), (p!"examples", (.list [(.str p!"53307860c3599d1de448e19d")]))])), (p!"resource", (.dict [(p!"enum", (.list [(.str p!"chatMessages"), (.str p!"events")])), (p!"description", (.str p!"The resource to consume."))]))]))]))])), (p!"operations", (.dict [(p!"sendRoomInfo", (.dict [(p!"action", (.str p!"send")), (p!"channel", (.dict [(p!"$ref", (.str p!"#/channels/rooms"))])), (p!"bindings", (.dict [(p!"http", (.dict [(p!"method", (.str p!"POST"))]))])), (p!"messages", (.list [(.dict [(p!"$ref", (.str p!"#/channels/rooms/messages/chatMessage"))]), (.dict [(p!"$ref", (.str p!"#/channels/rooms/messages/heartbeat"))])]))]))])), (p!"components", (.dict [(p!"securitySchemes", (.dict [(p!"httpBearerToken", (.dict [(p!"type", (.str p!"http")), (p!"scheme", (.str p!"bearer"))]))])), (p!"messages", (.dict [(p!"chatMessage", (.dict [(p!"summary", (.str p!"A message represents an individual chat message sent to a room. They are a sub-resource of a room.")), (p!"payload", (.dict [(p!"schemaFormat", (.str p!"application/schema+yaml;version=draft-07")), (p!"schema", (.dict [(p!"type", (.str p!"object")), (p!"properties", (.dict [(p!"id", (.dict [(p!"type", (.str p!"string")), (p!"description", (.str p!"ID of the message."))])), (p!"text", (.dict [(p!"type", (.str p!"string")), (p!"description", (.str p!"Original message in plain-text/markdown."))])), (p!"html", (.dict [(p!"type", (.str p!"string")), (p!"description", (.str p!"HTML formatted message."))])), (p!"sent", (.dict [(p!"type", (.str p!"string")), (p!"format", (.str p!"date-time")), (p!"description", (.str p!"ISO formatted date of the message."))])), (p!"fromUser", (.dict [(p!"type", (.str p!"object")), (p!"description", (.str p!"User that sent the message.")), (p!"properties", (.dict [(p!"id", (.dict [(p!"type", (.str p!"string")), (p!"description", (.str p!"Gitter User ID."))])), (p!"username", (.dict [(p!"type", (.str p!"string")), (p!"description", (.str p!"Gitter/GitHub username."))])), (p!"displayName", (.dict [(p!"type", (.str p!"string")), (p!"description", (.str p!"Gitter/GitHub user real name."))])), (p!"url", (.dict [(p!"type", (.str p!"string")), (p!"description", (.str p!"Path to the user on Gitter."))])), (p!"avatarUrl", (.dict [(p!"type", (.str p!"string")), (p!"format", (.str p!"uri")), (p!"description", (.str p!"User avatar URI."))])), (p!"avatarUrlSmall", (.dict [(p!"type", (.str p!"string")), (p!"format", (.str p!"uri")), (p!"description", (.str p!"User avatar URI (small)."))])), (p!"avatarUrlMedium", (.dict [(p!"type", (.str p!"string")), (p!"format", (.str p!"uri")), (p!"description", (.str p!"User avatar URI (medium)."))])), (p!"v", (.dict [(p!"type", (.str p!"number")), (p!"description", (.str p!"Version."))])), (p!"gv", (.dict [(p!"type", (.str p!"string")), (p!"description", (.str p!"Stands for \"Gravatar version\" and is used for cache busting."))]))]))])), (p!"unread", (.dict [(p!"type", (.str p!"boolean")), (p!"description", (.str p!"Boolean that indicates if the current user has read the message."))])), (p!"readBy", (.dict [(p!"type", (.str p!"number")), (p!"description", (.str p!"Number of users that have read the message."))])), (p!"urls", (.dict [(p!"type", (.str p!"array")), (p!"description", (.str p!"List of URLs present in the message.")), (p!"items", (.dict [(p!"type", (.str p!"string")), (p!"format", (.str p!"uri"))]))])), (p!"mentions", (.dict [(p!"type", (.str p!"array")), (p!"description", (.str p!"List of @Mentions in the message.")), (p!"items", (.dict [(p!"type", (.str p!"object")), (p!"properties", (.dict [(p!"screenName", (.dict [(p!"type", (.str p!"string"))])), (p!"userId", (.dict [(p!"type", (.str p!"string"))])), (p!"userIds", (.dict [(p!"type", (.str p!"array")), (p!"items", (.dict [(p!"type", (.str p!"string"))]))]))]))]))])), (p!"issues", (.dict [(p!"type", (.str p!"array")), (p!"description", (.str p!"List of #Issues referenced in the message.")), (p!"items", (.dict [(p!"type", (.str p!"object")), (p!"properties", (.dict [(p!"number", (.dict [(p!"type", (.str p!"string"))]))]))]))])), (p!"meta", (.dict [(p!"type", (.str p!"array")), (p!"description", (.str p!"Metadata. This is currently not used for anything.")), (p!"items", (.dict []))])), (p!"v", (.dict [(p!"type", (.str p!"number")), (p!"description", (.str p!"Version."))])), (p!"gv", (.dict [(p!"type", (.str p!"string")), (p!"description", (.str p!"Stands for \"Gravatar version\" and is used for cache busting."))]))]))]))])), (p!"bindings", (.dict [(p!"http", (.dict [(p!"headers", (.dict [(p!"type", (.str p!"object")), (p!"properties", (.dict [(p!"Transfer-Encoding", (.dict [(p!"type", (.str p!"string")), (p!"const", (.str p!"chunked"))])), (p!"Trailer", (.dict [(p!"type", (.str p!"string")), (p!"const", (.str p!"\\r\\n"))]))]))]))]))]))])), (p!"heartbeat", (.dict [(p!"summary", (.str p!"Its purpose is to keep the connection alive.")), (p!"payload", (.dict [(p!"schemaFormat", (.str p!"application/schema+yaml;version=draft-07")), (p!"schema", (.dict [(p!"type", (.str p!"string")), (p!"enum", (.list [(.str p!"\r\n")]))]))])), (p!"bindings", (.dict [(p!"http", (.dict [(p!"headers", (.dict [(p!"type", (.str p!"object")), (p!"properties", (.dict [(p!"Transfer-Encoding", (.dict [(p!"type", (.str p!"string")), (p!"const", (.str p!"chunked"))])), (p!"Trailer", (.dict [(p!"type", (.str p!"string")), (p!"const", (.str p!"\\r\\n"))]))]))]))]))]))]))]))]))])) : Option Unit).isSome = true := by decide +kernel

/-- `json_specs/valid/http.json`, tests/test_base_validation.py:27 -/
example : (do
  discard (load .AsyncAPI3 (.dict [(p!"asyncapi", (.str p!"3.0.0")), (p!"id", (.str p!"tag:stream.gitter.im,2022:api")), (p!"info", (.dict [(p!"title", (.str p!"Gitter Streaming API")), (p!"version", (.str p!"1.0.0"))])), (p!"servers", (.dict [(p!"production", (.dict [(p!"host", (.str p!"stream.gitter.im")), (p!"pathname", (.str p!"/v1")), (p!"protocol", (.str p!"https")), (p!"protocolVersion", (.str p!"1.1")), (p!"security", (.list [(.dict [(p!"$ref", (.str p!"#/components/securitySchemes/httpBearerToken"))])]))]))])), (p!"channels", (.dict [(p!"rooms", (.dict [(p!"address", (.str p!"/rooms/{roomId}/{resource}")), (p!"messages", (.dict [(p!"chatMessage", (.dict [(p!"$ref", (.str p!"#/components/messages/chatMessage"))])), (p!"heartbeat", (.dict [(p!"$ref", (.str p!"#/components/messages/heartbeat"))]))])), (p!"parameters", (.dict [(p!"roomId", (.dict [(p!"description", (.str p!"Id of the Gitter room.")), (p!"examples", (.list [(.str p!"53307860c3599d1de448e19d")]))])), (p!"resource", (.dict [(p!"enum", (.list [(.str p!"chatMessages"), (.str p!"events")])), (p!"description", (.str p!"The resource to consume."))]))]))]))])), (p!"operations", (.dict [(p!"sendRoomInfo", (.dict [(p!"action", (.str p!"send")), (p!"channel", (.dict [(p!"$ref", (.str p!"#/channels/rooms"))])), (p!"bindings", (.dict [(p!"http", (.dict [(p!"method", (.str p!"POST"))]))])), (p!"messages", (.list [(.dict [(p!"$ref", (.str p!"#/channels/rooms/messages/chatMessage"))]), (.dict [(p!"$ref", (.str p!"#/channels/rooms/messages/heartbeat"))])]))]))])), (p!"components", (.dict [(p!"securitySchemes", (.dict [(p!"httpBearerToken", (.dict [(p!"type", (.str p!"http")), (p!"scheme", (.str p!"bearer"))]))])), (p!"messages", (.dict [(p!"chatMessage", (.dict [(p!"summary", (.str p!"A message represents an individual chat message sent to a room. They are a sub-resource of a room.")), (p!"payload", (.dict [(p!"schemaFormat", (.str p!"application/schema+yaml;version=draft-07")), (p!"schema", (.dict [(p!"type", (.str p!"object")), (p!"properties", (.dict [(p!"id", (.dict [(p!"type", (.str p!"string")), (p!"description", (.str p!"ID of the message."))])), (p!"text", (.dict [(p!"type", (.str p!"string")), (p!"description", (.str p!"Original message in plain-text/markdown."))])), (p!"html", (.dict [(p!"type", (.str p!"string")), (p!"description", (.str p!"HTML formatted message."))])), (p!"sent", (.dict [(p!"type", (.str p!"string")), (p!"format", (.str p!"date-time")), (p!"description", (.str p!"ISO formatted date of the message."))])), (p!"fromUser", (.dict [(p!"type", (.str p!"object")), (p!"description", (.str p!"User that sent the message.")), (p!"properties", (.dict [(p!"id", (.dict [(p!"type", (.str p!"string")), (p!"description", (.str p!"Gitter User ID."))])), (p!"username", (.dict [(p!"type", (.str p!"string")), (p!"description", (.str p!"Gitter/GitHub username."))])), (p!"displayName", (.dict [(p!"type", (.str p!"string")), (p!"description", (.str p!"Gitter/GitHub user real name."))])), (p!"url", (.dict [(p!"type", (.str p!"string")), (p!"description", (.str p!"Path to the user on Gitter."))])), (p!"avatarUrl", (.dict [(p!"type", (.str p!"string")), (p!"format", (.str p!"uri")), (p!"description", (.str p!"User avatar URI."))])), (p!"avatarUrlSmall", (.dict [(p!"type", (.str p!"string")), (p!"format", (.str p!"uri")), (p!"description", (.str p!"User avatar URI (small)."))])), (p!"avatarUrlMedium", (.dict [(p!"type", (.str p!"string")), (p!"format", (.str p!"uri")), (p!"description", (.str p!"User avatar URI (medium)."))])), (p!"v", (.dict [(p!"type", (.str p!"number")), (p!"description", (.str p!"Version."))])), (p!"gv", (.dict [(p!"type", (.str p!"string")), (p!"description", (.str p!"Stands for \"Gravatar version\" and is used for cache busting."))]))]))])), (p!"unread", (.dict [(p!"type", (.str p!"boolean")), (p!"description", (.str p!"Boolean that indicates if the current user has read the message."))])), (p!"readBy", (.dict [(p!"type", (.str p!"number")), (p!"description", (.str p!"Number of users that have read the message."))])), (p!"urls", (.dict [(p!"type", (.str p!"array")), (p!"description", (.str p!"List of URLs present in the message.")), (p!"items", (.dict [(p!"type", (.str p!"string")), (p!"format", (.str p!"uri"))]))])), (p!"mentions", (.dict [(p!"type", (.str p!"array")), (p!"description", (.str p!"List of @Mentions in the message.")), (p!"items", (.dict [(p!"type", (.str p!"object")), (p!"properties", (.dict [(p!"screenName", (.dict [(p!"type", (.str p!"string"))])), (p!"userId", (.dict [(p!"type", (.str p!"string"))])), (p!"userIds", (.dict [(p!"type", (.str p!"array")), (p!"items", (.dict [(p!"type", (.str p!"string"))]))]))]))]))])), (p!"issues", (.dict [(p!"type", (.str p!"array")), (p!"description", (.str p!"List of #Issues referenced in the message.")), (p!"items", (.dict [(p!"type", (.str p!"object")), (p!"properties", (.dict [(p!"number", (.dict [(p!"type", (.str p!"string"))]))]))]))])), (p!"meta", (.dict [(p!"type", (.str p!"array")), (p!"description", (.str p!"Metadata. This is currently not used for anything.")), (p!"items", (.dict []))])), (p!"v", (.dict [(p!"type", (.str p!"number")), (p!"description", (.str p!"Version."))])), (p!"gv", (.dict [(p!"type", (.str p!"string")), (p!"description", (.str p!"Stands for \"Gravatar version\" and is used for cache busting."))]))]))]))])), (p!"bindings", (.dict [(p!"http", (.dict [(p!"headers", (.dict [(p!"type", (.str p!"object")), (p!"properties", (.dict [(p!"Transfer-Encoding", (.dict [(p!"type", (.str p!"string")), (p!"const", (.str p!"chunked"))])), (p!"Trailer", (.dict [(p!"type", (.str p!"string")), (p!"const", (.str p!"\\r\\n"))]))]))]))]))]))])), (p!"heartbeat", (.dict [(p!"summary", (.str p!"Its purpose is to keep the connection alive.")), (p!"payload", (.dict [(p!"schemaFormat", (.str p!"application/schema+yaml;version=draft-07")), (p!"schema", (.dict [(p!"type", (.str p!"string")), (p!"enum", (.list [(.str p!"\r\n")]))]))])), (p!"bindings", (.dict [(p!"http", (.dict [(p!"headers", (.dict [(p!"type", (.str p!"object")), (p!"properties", (.dict [(p!"Transfer-Encoding", (.dict [(p!"type", (.str p!"string")), (p!"const", (.str p!"chunked"))])), (p!"Trailer", (.dict [(p!"type", (.str p!"string")), (p!"const", (.str p!"\\r\\n"))]))]))]))]))]))]))]))]))])) : Option Unit).isSome = true := by decide +kernel

/-- `json_specs/valid/ibm_mq.json`, tests/test_base_validation.py:27 -/
example : (do
  discard (load .AsyncAPI3 (.dict [(p!"asyncapi", (.str p!"3.0.0")), (p!"info", (.dict [(p!"title", (.str p!"Record Label Service")), (p!"version", (.str p!"1.1.0")), (p!"description", (.str p!"This service is in charge of processing music")), (p!"license", (.dict [(p!"name", (.str p!"Apache License 2.0")), (p!"url", (.str p!"https://www.apache.org/licenses/LICENSE-2.0"))]))])), (p!"servers", (.dict [(p!"production", (.dict [(p!"host", (.str p!"localhost:1414")), (p!"pathname", (.str p!"/QM1/DEV.APP.SVRCONN")), (p!"protocol", (.str p!"ibmmq-secure")), (p!"description", (.str p!"Production Instance 1")), (p!"bindings", (.dict [(p!"ibmmq", (.dict [(p!"cipherSpec", (.str p!"ANY_TLS12"))]))]))]))])), (p!"channels", (.dict [(p!"songReleased", (.dict [(p!"address", (.str p!"song/released")), (p!"messages", (.dict [(p!"Song", (.dict [(p!"$ref", (.str p!"#/components/messages/Song"))]))]))]))])), (p!"operations", (.dict [(p!"receiveSong", (.dict [(p!"action", (.str p!"receive")), (p!"channel", (.dict [(p!"$ref", (.str p!"#/channels/songReleased"))])), (p!"messages", (.list [(.dict [(p!"$ref", (.str p!"#/channels/songReleased/messages/Song"))])]))])), (p!"sendSong", (.dict [(p!"action", (.str p!"send")), (p!"channel", (.dict [(p!"$ref", (.str p!"#/channels/songReleased"))])), (p!"messages", (.list [(.dict [(p!"$ref", (.str p!"#/channels/songReleased/messages/Song"))])]))]))])), (p!"components", (.dict [(p!"messages", (.dict [(p!"Song", (.dict [(p!"payload", (.dict [(p!"type", (.str p!"object")), (p!"properties", (.dict [(p!"title", (.dict [(p!"type", (.str p!"string")), (p!"description", (.str p!"Song title"))])), (p!"artist", (.dict [(p!"type", (.str p!"string")), (p!"description", (.str p!"Song artist"))])), (p!"album", (.dict [(p!"type", (.str p!"string")), (p!"description", (.str p!"Song album"))])), (p!"genre", (.dict [(p!"type", (.str p!"string")), (p!"description", (.str p!"Primary song genre"))])), (p!"length", (.dict [(p!"type", (.str p!"integer")), (p!"description", (.str p!"Track length in seconds"))]))]))]))]))]))]))])) : Option Unit).isSome = true := by decide +kernel

/-- `json_specs/valid/kraken.json`, tests/test_base_validation.py:27 -/
example : (do
  discard (load .AsyncAPI3 (.dict [(p!"asyncapi", (.str p!"3.0.0")), (p!"info", (.dict [(p!"title", (.str p!"Kraken Websockets API")), (p!"version", (.str p!"1.8.0")), (p!"description", (.str p!"WebSockets API offers real-time market data updates. WebSockets is a bidirectional protocol offering fastest real-time data, helping you build real-time applications. The public message types presented below do not require authentication. Private-data messages can be subscribed on a separate authenticated endpoint. \n\n### General Considerations\n\n- TLS with SNI (Server Name Indication) is required in order to establish a Kraken WebSockets API connection. See Cloudflare's [What is SNI?](https://www.cloudflare.com/learning/ssl/what-is-sni/) guide for more details.\n- All messages sent and received via WebSockets are encoded in JSON format\n- All decimal fields (including timestamps) are quoted to preserve precision.\n- Timestamps should not be considered unique and not be considered as aliases for transaction IDs. Also, the granularity of timestamps is not representative of transaction rates.\n- At least one private message should be subscribed to keep the authenticated client connection open.\n- Please use REST API endpoint [AssetPairs](https://www.kraken.com/features/api#get-tradable-pairs) to fetch the list of pairs which can be subscribed via WebSockets API. For example, field 'wsname' gives the supported pairs name which can be used to subscribe.\n- Cloudflare imposes a connection/re-connection rate limit (per IP address) of approximately 150 attempts per rolling 10 minutes. If this is exceeded, the IP is banned for 10 minutes.\n- Recommended reconnection behaviour is to (1) attempt reconnection instantly up to a handful of times if the websocket is dropped randomly during normal operation but (2) after maintenance or extended downtime, attempt to reconnect no more quickly than once every 5 seconds. There is no advantage to reconnecting more rapidly after maintenance during cancel_only mode.\n"))])), (p!"channels", (.dict [(p!"currencyExchange", (.dict [(p!"address", (.str p!"/")), (p!"messages", (.dict [(p!"ping", (.dict [(p!"$ref", (.str p!"#/components/messages/ping"))])), (p!"pong", (.dict [(p!"$ref", (.str p!"#/components/messages/pong"))])), (p!"heartbeat", (.dict [(p!"$ref", (.str p!"#/components/messages/heartbeat"))])), (p!"systemStatus", (.dict [(p!"$ref", (.str p!"#/components/messages/systemStatus"))])), (p!"subscriptionStatus", (.dict [(p!"$ref", (.str p!"#/components/messages/subscriptionStatus"))])), (p!"subscribe", (.dict [(p!"$ref", (.str p!"#/components/messages/subscribe"))])), (p!"unsubscribe", (.dict [(p!"$ref", (.str p!"#/components/messages/unsubscribe"))])), (p!"dummyCurrencyInfo", (.dict [(p!"$ref", (.str p!"#/components/messages/dummyCurrencyInfo"))]))]))]))])), (p!"operations", (.dict [(p!"receivePing", (.dict [(p!"action", (.str p!"receive")), (p!"channel", (.dict [(p!"$ref", (.str p!"#/channels/currencyExchange"))])), (p!"reply", (.dict [(p!"channel", (.dict [(p!"$ref", (.str p!"#/channels/currencyExchange"))])), (p!"messages", (.list [(.dict [(p!"$ref", (.str p!"#/channels/currencyExchange/messages/pong"))])]))])), (p!"messages", (.list [(.dict [(p!"$ref", (.str p!"#/channels/currencyExchange/messages/ping"))])]))])), (p!"sendHeartbeat", (.dict [(p!"action", (.str p!"send")), (p!"channel", (.dict [(p!"$ref", (.str p!"#/channels/currencyExchange"))])), (p!"messages", (.list [(.dict [(p!"$ref", (.str p!"#/channels/currencyExchange/messages/heartbeat"))])]))])), (p!"systemStatus", (.dict [(p!"action", (.str p!"send")), (p!"channel", (.dict [(p!"$ref", (.str p!"#/channels/currencyExchange"))])), (p!"messages", (.list [(.dict [(p!"$ref", (.str p!"#/channels/currencyExchange/messages/systemStatus"))])]))])), (p!"receiveSubscribeRequest", (.dict [(p!"action", (.str p!"receive")), (p!"channel", (.dict [(p!"$ref", (.str p!"#/channels/currencyExchange"))])), (p!"reply", (.dict [(p!"channel", (.dict [(p!"$ref", (.str p!"#/channels/currencyExchange"))])), (p!"messages", (.list [(.dict [(p!"$ref", (.str p!"#/channels/currencyExchange/messages/subscriptionStatus"))]), (.dict [(p!"$ref", (.str p!"#/channels/currencyExchange/messages/dummyCurrencyInfo"))])]))])), (p!"messages", (.list [(.dict [(p!"$ref", (.str p!"#/channels/currencyExchange/messages/subscribe"))])]))])), (p!"receiveUnsubscribeRequest", (.dict [(p!"action", (.str p!"receive")), (p!"channel", (.dict [(p!"$ref", (.str p!"#/channels/currencyExchange"))])), (p!"reply", (.dict [(p!"channel", (.dict [(p!"$ref", (.str p!"#/channels/currencyExchange"))])), (p!"messages", (.list [(.dict [(p!"$ref", (.str p!"#/channels/currencyExchange/messages/subscriptionStatus"))])]))])), (p!"messages", (.list [(.dict [(p!"$ref", (.str p!"#/channels/currencyExchange/messages/unsubscribe"))])]))]))])), (p!"components", (.dict [(p!"messages", (.dict [(p!"dummyCurrencyInfo", (.dict [(p!"summary", (.str p!"Dummy message with no real life details")), (p!"description", (.str p!"It is here in this example to showcase that there is an additional message that normally is of a complex structure. It represents actually currency exchange value to show a reply to operation receiveSubscribeRequest with more than one possible message.")), (p!"payload", (.dict [(p!"type", (.str p!"object")), (p!"properties", (.dict [(p!"event", (.dict [(p!"type", (.str p!"string")), (p!"const", (.str p!"currencyInfo"))])), (p!"reqid", (.dict [(p!"$ref", (.str p!"#/components/schemas/reqid"))])), (p!"data", (.dict [(p!"type", (.str p!"object"))]))])), (p!"required", (.list [(.str p!"event")]))])), (p!"correlationId", (.dict [(p!"location", (.str p!"$message.payload#/reqid"))]))])), (p!"ping", (.dict [(p!"summary", (.str p!"Ping server to determine whether connection is alive")), (p!"description", (.str p!"Client can ping server to determine whether connection is alive, server responds with pong. This is an application level ping as opposed to default ping in websockets standard which is server initiated")), (p!"payload", (.dict [(p!"$ref", (.str p!"#/components/schemas/ping"))])), (p!"correlationId", (.dict [(p!"location", (.str p!"$message.payload#/reqid"))]))])), (p!"pong", (.dict [(p!"summary", (.str p!"Pong is a response to ping message")), (p!"description", (.str p!"Server pong response to a ping to determine whether connection is alive. This is an application level pong as opposed to default pong in websockets standard which is sent by client in response to a ping")), (p!"payload", (.dict [(p!"$ref", (.str p!"#/components/schemas/pong"))])), (p!"correlationId", (.dict [(p!"location", (.str p!"$message.payload#/reqid"))]))])), (p!"subscribe", (.dict [(p!"description", (.str p!"Subscribe to a topic on a single or multiple currency pairs.")), (p!"payload", (.dict [(p!"$ref", (.str p!"#/components/schemas/subscribe"))])), (p!"correlationId", (.dict [(p!"location", (.str p!"$message.payload#/reqid"))]))])), (p!"unsubscribe", (.dict [(p!"description", (.str p!"Unsubscribe, can specify a channelID or multiple currency pairs.")), (p!"payload", (.dict [(p!"$ref", (.str p!"#/components/schemas/unsubscribe"))])), (p!"correlationId", (.dict [(p!"location", (.str p!"$message.payload#/reqid"))]))])), (p!"subscriptionStatus", (.dict [(p!"description", (.str p!"Subscription status response to subscribe, unsubscribe or exchange initiated unsubscribe.")), (p!"payload", (.dict [(p!"$ref", (.str p!"#/components/schemas/subscriptionStatus"))])), (p!"examples", (.list [(.dict [(p!"payload", (.dict [(p!"channelID", (.int (10001))), (p!"channelName", (.str p!"ohlc-5")), (p!"event", (.str p!"subscriptionStatus")), (p!"pair", (.str p!"XBT/EUR")), (p!"reqid", (.int (42))), (p!"status", (.str p!"unsubscribed")), (p!"subscription", (.dict [(p!"interval", (.int (5))), (p!"name", (.str p!"ohlc"))]))]))]), (.dict [(p!"payload", (.dict [(p!"errorMessage", (.str p!"Subscription depth not supported")), (p!"event", (.str p!"subscriptionStatus")), (p!"pair", (.str p!"XBT/USD")), (p!"status", (.str p!"error")), (p!"subscription", (.dict [(p!"depth", (.int (42))), (p!"name", (.str p!"book"))]))]))])]))])), (p!"systemStatus", (.dict [(p!"description", (.str p!"Status sent on connection or system status changes.")), (p!"payload", (.dict [(p!"$ref", (.str p!"#/components/schemas/systemStatus"))]))])), (p!"heartbeat", (.dict [(p!"description", (.str p!"Server heartbeat sent if no subscription traffic within 1 second (approximately)")), (p!"payload", (.dict [(p!"$ref", (.str p!"#/components/schemas/heartbeat"))]))]))])), (p!"schemas", (.dict [(p!"ping", (.dict [(p!"type", (.str p!"object")), (p!"properties", (.dict [(p!"event", (.dict [(p!"type", (.str p!"string")), (p!"const", (.str p!"ping"))])), (p!"reqid", (.dict [(p!"$ref", (.str p!"#/components/schemas/reqid"))]))])), (p!"required", (.list [(.str p!"event")]))])), (p!"heartbeat", (.dict [(p!"type", (.str p!"object")), (p!"properties", (.dict [(p!"event", (.dict [(p!"type", (.str p!"string")), (p!"const", (.str p!"heartbeat"))]))]))])), (p!"pong", (.dict [(p!"type", (.str p!"object")), (p!"properties", (.dict [(p!"event", (.dict [(p!"type", (.str p!"string")), (p!"const", (.str p!"pong"))])), (p!"reqid", (.dict [(p!"$ref", (.str p!"#/components/schemas/reqid"))]))]))])), (p!"systemStatus", (.dict [(p!"type", (.str p!"object")), (p!"properties", (.dict [(p!"event", (.dict [(p!"type", (.str p!"string")), (p!"const", (.str p!"systemStatus"))])), (p!"connectionID", (.dict [(p!"type", (.str p!"integer")), (p!"description", (.str p!"The ID of the connection"))])), (p!"status", (.dict [(p!"$ref", (.str p!"#/components/schemas/status"))])), (p!"version", (.dict [(p!"type", (.str p!"string"))]))]))])), (p!"status", (.dict [(p!"type", (.str p!"string")), (p!"enum", (.list [(.str p!"online"), (.str p!"maintenance"), (.str p!"cancel_only"), (.str p!"limit_only"), (.str p!"post_only")]))])), (p!"subscribe", (.dict [(p!"type", (.str p!"object")), (p!"properties", (.dict [(p!"event", (.dict [(p!"type", (.str p!"string")), (p!"const", (.str p!"subscribe"))])), (p!"reqid", (.dict [(p!"$ref", (.str p!"#/components/schemas/reqid"))])), (p!"pair", (.dict [(p!"$ref", (.str p!"#/components/schemas/pair"))])), (p!"subscription", (.dict [(p!"type", (.str p!"object")), (p!"properties", (.dict [(p!"depth", (.dict [(p!"$ref", (.str p!"#/components/schemas/depth"))])), (p!"interval", (.dict [(p!"$ref", (.str p!"#/components/schemas/interval"))])), (p!"name", (.dict [(p!"$ref", (.str p!"#/components/schemas/name"))])), (p!"ratecounter", (.dict [(p!"$ref", (.str p!"#/components/schemas/ratecounter"))])), (p!"snapshot", (.dict [(p!"$ref", (.str p!"#/components/schemas/snapshot"))])), (p!"token", (.dict [(p!"$ref", (.str p!"#/components/schemas/token"))]))])), (p!"required", (.list [(.str p!"name")]))]))])), (p!"required", (.list [(.str p!"event")]))])), (p!"unsubscribe", (.dict [(p!"type", (.str p!"object")), (p!"properties", (.dict [(p!"event", (.dict [(p!"type", (.str p!"string")), (p!"const", (.str p!"unsubscribe"))])), (p!"reqid", (.dict [(p!"$ref", (.str p!"#/components/schemas/reqid"))])), (p!"pair", (.dict [(p!"$ref", (.str p!"#/components/schemas/pair"))])), (p!"subscription", (.dict [(p!"type", (.str p!"object")), (p!"properties", (.dict [(p!"depth", (.dict [(p!"$ref", (.str p!"#/components/schemas/depth"))])), (p!"interval", (.dict [(p!"$ref", (.str p!"#/components/schemas/interval"))])), (p!"name", (.dict [(p!"$ref", (.str p!"#/components/schemas/name"))])), (p!"token", (.dict [(p!"$ref", (.str p!"#/components/schemas/token"))]))])), (p!"required", (.list [(.str p!"name")]))]))])), (p!"required", (.list [(.str p!"event")]))])), (p!"subscriptionStatus", (.dict [(p!"type", (.str p!"object")), (p!"oneOf", (.list [(.dict [(p!"$ref", (.str p!"#/components/schemas/subscriptionStatusError"))]), (.dict [(p!"$ref", (.str p!"#/components/schemas/subscriptionStatusSuccess"))])]))])), (p!"subscriptionStatusError", (.dict [(p!"allOf", (.list [(.dict [(p!"properties", (.dict [(p!"errorMessage", (.dict [(p!"type", (.str p!"string"))]))])), (p!"required", (.list [(.str p!"errorMessage")]))]), (.dict [(p!"$ref", (.str p!"#/components/schemas/subscriptionStatusCommon"))])]))])), (p!"subscriptionStatusSuccess", (.dict [(p!"allOf", (.list [(.dict [(p!"properties", (.dict [(p!"channelID", (.dict [(p!"type", (.str p!"integer")), (p!"description", (.str p!"ChannelID on successful subscription, applicable to public messages only."))])), (p!"channelName", (.dict [(p!"type", (.str p!"string")), (p!"description", (.str p!"Channel Name on successful subscription. For payloads 'ohlc' and 'book', respective interval or depth will be added as suffix."))]))])), (p!"required", (.list [(.str p!"channelID"), (.str p!"channelName")]))]), (.dict [(p!"$ref", (.str p!"#/components/schemas/subscriptionStatusCommon"))])]))])), (p!"subscriptionStatusCommon", (.dict [(p!"type", (.str p!"object")), (p!"required", (.list [(.str p!"event")])), (p!"properties", (.dict [(p!"event", (.dict [(p!"type", (.str p!"string")), (p!"const", (.str p!"subscriptionStatus"))])), (p!"reqid", (.dict [(p!"$ref", (.str p!"#/components/schemas/reqid"))])), (p!"pair", (.dict [(p!"$ref", (.str p!"#/components/schemas/pair"))])), (p!"status", (.dict [(p!"$ref", (.str p!"#/components/schemas/status"))])), (p!"subscription", (.dict [(p!"required", (.list [(.str p!"name")])), (p!"type", (.str p!"object")), (p!"properties", (.dict [(p!"depth", (.dict [(p!"$ref", (.str p!"#/components/schemas/depth"))])), (p!"interval", (.dict [(p!"$ref", (.str p!"#/components/schemas/interval"))])), (p!"maxratecount", (.dict [(p!"$ref", (.str p!"#/components/schemas/maxratecount"))])), (p!"name", (.dict [(p!"$ref", (.str p!"#/components/schemas/name"))])), (p!"token", (.dict [(p!"$ref", (.str p!"#/components/schemas/token"))]))]))]))]))])), (p!"interval", (.dict [(p!"type", (.str p!"integer")), (p!"description", (.str p!"Time interval associated with ohlc subscription in minutes.")), (p!"default", (.int (1))), (p!"enum", (.list [(.int (1)), (.int (5)), (.int (15)), (.int (30)), (.int (60)), (.int (240)), (.int (1440)), (.int (10080)), (.int (21600))]))])), (p!"name", (.dict [(p!"type", (.str p!"string")), (p!"description", (.str p!"The name of the channel you subscribe too.")), (p!"enum", (.list [(.str p!"book"), (.str p!"ohlc"), (.str p!"openOrders"), (.str p!"ownTrades"), (.str p!"spread"), (.str p!"ticker"), (.str p!"trade")]))])), (p!"token", (.dict [(p!"type", (.str p!"string")), (p!"description", (.str p!"base64-encoded authentication token for private-data endpoints."))])), (p!"depth", (.dict [(p!"type", (.str p!"integer")), (p!"default", (.int (10))), (p!"enum", (.list [(.int (10)), (.int (25)), (.int (100)), (.int (500)), (.int (1000))])), (p!"description", (.str p!"Depth associated with book subscription in number of levels each side."))])), (p!"maxratecount", (.dict [(p!"type", (.str p!"integer")), (p!"description", (.str p!"Max rate-limit budget. Compare to the ratecounter field in the openOrders updates to check whether you are approaching the rate limit."))])), (p!"ratecounter", (.dict [(p!"type", (.str p!"boolean")), (p!"default", (.bool false)), (p!"description", (.str p!"Whether to send rate-limit counter in updates (supported only for openOrders subscriptions)"))])), (p!"snapshot", (.dict [(p!"type", (.str p!"boolean")), (p!"default", (.bool true)), (p!"description", (.str p!"Whether to send historical feed data snapshot upon subscription (supported only for ownTrades subscriptions)"))])), (p!"reqid", (.dict [(p!"type", (.str p!"integer")), (p!"description", (.str p!"client originated ID reflected in response message."))])), (p!"pair", (.dict [(p!"type", (.str p!"array")), (p!"description", (.str p!"Array of currency pairs.")), (p!"items", (.dict [(p!"type", (.str p!"string")), (p!"description", (.str p!"Format of each pair is \"A/B\", where A and B are ISO 4217-A3 for standardized assets and popular unique symbol if not standardized.")), (p!"pattern", (.str p!"[A-Z\\s]+\\/[A-Z\\s]+"))]))]))]))]))])) : Option Unit).isSome = true := by decide +kernel

/-- `json_specs/valid/mqtt.json`, tests/test_base_validation.py:27 -/
example : (do
  discard (load .AsyncAPI3 (.dict [(p!"asyncapi", (.str p!"3.0.0")), (p!"info", (.dict [(p!"title", (.str p!"Streetlights MQTT API")), (p!"version", (.str p!"1.0.0")), (p!"description", (.str p!"The Smartylighting Streetlights API allows you to remotely manage the city\nlights.\n### Check out its awesome features:\n\n* Turn a specific streetlight on/off 🌃  \n* Dim a specific streetlight 😎\n* Receive real-time information about environmental lighting conditions 📈")), (p!"license", (.dict [(p!"name", (.str p!"Apache 2.0")), (p!"url", (.str p!"https://www.apache.org/licenses/LICENSE-2.0"))]))])), (p!"defaultContentType", (.str p!"application/json")), (p!"servers", (.dict [(p!"production", (.dict [(p!"host", (.str p!"test.mosquitto.org:{port}")), (p!"protocol", (.str p!"mqtt")), (p!"description", (.str p!"Test broker")), (p!"variables", (.dict [(p!"port", (.dict [(p!"description", (.str p!"Secure connection (TLS) is available through port 8883.")), (p!"default", (.str p!"1883")), (p!"enum", (.list [(.str p!"1883"), (.str p!"8883")]))]))])), (p!"security", (.list [(.dict [(p!"$ref", (.str p!"#/components/securitySchemes/apiKey"))]), (.dict [(p!"type", (.str p!"oauth2")), (p!"description", (.str p!"Flows to support OAuth 2.0")), (p!"flows", (.dict [(p!"implicit", (.dict [(p!"authorizationUrl", (.str p!"https://authserver.example/auth")), (p!"availableScopes", (.dict [(p!"streetlights:on", (.str p!"Ability to switch lights on")), (p!"streetlights:off", (.str p!"Ability to switch lights off")), (p!"streetlights:dim", (.str p!"Ability to dim the lights"))]))])), (p!"password", (.dict [(p!"tokenUrl", (.str p!"https://authserver.example/token")), (p!"availableScopes", (.dict [(p!"streetlights:on", (.str p!"Ability to switch lights on")), (p!"streetlights:off", (.str p!"Ability to switch lights off")), (p!"streetlights:dim", (.str p!"Ability to dim the lights"))]))])), (p!"clientCredentials", (.dict [(p!"tokenUrl", (.str p!"https://authserver.example/token")), (p!"availableScopes", (.dict [(p!"streetlights:on", (.str p!"Ability to switch lights on")), (p!"streetlights:off", (.str p!"Ability to switch lights off")), (p!"streetlights:dim", (.str p!"Ability to dim the lights"))]))])), (p!"authorizationCode", (.dict [(p!"authorizationUrl", (.str p!"https://authserver.example/auth")), (p!"tokenUrl", (.str p!"https://authserver.example/token")), (p!"refreshUrl", (.str p!"https://authserver.example/refresh")), (p!"availableScopes", (.dict [(p!"streetlights:on", (.str p!"Ability to switch lights on")), (p!"streetlights:off", (.str p!"Ability to switch lights off")), (p!"streetlights:dim", (.str p!"Ability to dim the lights"))]))]))])), (p!"scopes", (.list [(.str p!"streetlights:on"), (.str p!"streetlights:off"), (.str p!"streetlights:dim")]))]), (.dict [(p!"$ref", (.str p!"#/components/securitySchemes/openIdConnectWellKnown"))])])), (p!"tags", (.list [(.dict [(p!"name", (.str p!"env:production")), (p!"description", (.str p!"This environment is meant for production use case"))]), (.dict [(p!"name", (.str p!"kind:remote")), (p!"description", (.str p!"This server is a remote server. Not exposed by the application"))]), (.dict [(p!"name", (.str p!"visibility:public")), (p!"description", (.str p!"This resource is public and available to everyone"))])]))]))])), (p!"channels", (.dict [(p!"lightingMeasured", (.dict [(p!"address", (.str p!"smartylighting/streetlights/1/0/event/{streetlightId}/lighting/measured")), (p!"messages", (.dict [(p!"lightMeasured", (.dict [(p!"$ref", (.str p!"#/components/messages/lightMeasured"))]))])), (p!"description", (.str p!"The topic on which measured values may be produced and consumed.")), (p!"parameters", (.dict [(p!"streetlightId", (.dict [(p!"$ref", (.str p!"#/components/parameters/streetlightId"))]))]))])), (p!"lightTurnOn", (.dict [(p!"address", (.str p!"smartylighting/streetlights/1/0/action/{streetlightId}/turn/on")), (p!"messages", (.dict [(p!"turnOn", (.dict [(p!"$ref", (.str p!"#/components/messages/turnOnOff"))]))])), (p!"parameters", (.dict [(p!"streetlightId", (.dict [(p!"$ref", (.str p!"#/components/parameters/streetlightId"))]))]))])), (p!"lightTurnOff", (.dict [(p!"address", (.str p!"smartylighting/streetlights/1/0/action/{streetlightId}/turn/off")), (p!"messages", (.dict [(p!"turnOff", (.dict [(p!"$ref", (.str p!"#/components/messages/turnOnOff"))]))])), (p!"parameters", (.dict [(p!"streetlightId", (.dict [(p!"$ref", (.str p!"#/components/parameters/streetlightId"))]))]))])), (p!"lightsDim", (.dict [(p!"address", (.str p!"smartylighting/streetlights/1/0/action/{streetlightId}/dim")), (p!"messages", (.dict [(p!"dimLight", (.dict [(p!"$ref", (.str p!"#/components/messages/dimLight"))]))])), (p!"parameters", (.dict [(p!"streetlightId", (.dict [(p!"$ref", (.str p!"#/components/parameters/streetlightId"))]))]))]))])), (p!"operations", (.dict [(p!"receiveLightMeasurement", (.dict [(p!"action", (.str p!"receive")), (p!"channel", (.dict [(p!"$ref", (.str p!"#/channels/lightingMeasured"))])), (p!"summary", (.str p!"Inform about environmental lighting conditions of a particular streetlight.")), (p!"traits", (.list [(.dict [(p!"$ref", (.str p!"#/components/operationTraits/mqtt"))])])), (p!"messages", (.list [(.dict [(p!"$ref", (.str p!"#/channels/lightingMeasured/messages/lightMeasured"))])]))])), (p!"turnOn", (.dict [(p!"action", (.str p!"send")), (p!"channel", (.dict [(p!"$ref", (.str p!"#/channels/lightTurnOn"))])), (p!"traits", (.list [(.dict [(p!"$ref", (.str p!"#/components/operationTraits/mqtt"))])])), (p!"messages", (.list [(.dict [(p!"$ref", (.str p!"#/channels/lightTurnOn/messages/turnOn"))])]))])), (p!"turnOff", (.dict [(p!"action", (.str p!"send")), (p!"channel", (.dict [(p!"$ref", (.str p!"#/channels/lightTurnOff"))])), (p!"traits", (.list [(.dict [(p!"$ref", (.str p!"#/components/operationTraits/mqtt"))])])), (p!"messages", (.list [(.dict [(p!"$ref", (.str p!"#/channels/lightTurnOff/messages/turnOff"))])]))])), (p!"dimLight", (.dict [(p!"action", (.str p!"send")), (p!"channel", (.dict [(p!"$ref", (.str p!"#/channels/lightsDim"))])), (p!"traits", (.list [(.dict [(p!"$ref", (.str p!"#/components/operationTraits/mqtt"))])])), (p!"messages", (.list [(.dict [(p!"$ref", (.str p!"#/channels/lightsDim/messages/dimLight"))])]))]))])), (p!"components", (.dict [(p!"messages", (.dict [(p!"lightMeasured", (.dict [(p!"name", (.str p!"lightMeasured")), (p!"title", (.str p!"Light measured")), (p!"summary", (.str p!"Inform about environmental lighting conditions of a particular streetlight.")), (p!"contentType", (.str p!"application/json")), (p!"traits", (.list [(.dict [(p!"$ref", (.str p!"#/components/messageTraits/commonHeaders"))])])), (p!"payload", (.dict [(p!"$ref", (.str p!"#/components/schemas/lightMeasuredPayload"))]))])), (p!"turnOnOff", (.dict [(p!"name", (.str p!"turnOnOff")), (p!"title", (.str p!"Turn on/off")), (p!"summary", (.str p!"Command a particular streetlight to turn the lights on or off.")), (p!"traits", (.list [(.dict [(p!"$ref", (.str p!"#/components/messageTraits/commonHeaders"))])])), (p!"payload", (.dict [(p!"$ref", (.str p!"#/components/schemas/turnOnOffPayload"))]))])), (p!"dimLight", (.dict [(p!"name", (.str p!"dimLight")), (p!"title", (.str p!"Dim light")), (p!"summary", (.str p!"Command a particular streetlight to dim the lights.")), (p!"traits", (.list [(.dict [(p!"$ref", (.str p!"#/components/messageTraits/commonHeaders"))])])), (p!"payload", (.dict [(p!"$ref", (.str p!"#/components/schemas/dimLightPayload"))]))]))])), (p!"schemas", (.dict [(p!"lightMeasuredPayload", (.dict [(p!"type", (.str p!"object")), (p!"properties", (.dict [(p!"lumens", (.dict [(p!"type", (.str p!"integer")), (p!"minimum", (.int (0))), (p!"description", (.str p!"Light intensity measured in lumens."))])), (p!"sentAt", (.dict [(p!"$ref", (.str p!"#/components/schemas/sentAt"))]))]))])), (p!"turnOnOffPayload", (.dict [(p!"type", (.str p!"object")), (p!"properties", (.dict [(p!"command", (.dict [(p!"type", (.str p!"string")), (p!"enum", (.list [(.str p!"on"), (.str p!"off")])), (p!"description", (.str p!"Whether to turn on or off the light."))])), (p!"sentAt", (.dict [(p!"$ref", (.str p!"#/components/schemas/sentAt"))]))]))])), (p!"dimLightPayload", (.dict [(p!"type", (.str p!"object")), (p!"properties", (.dict [(p!"percentage", (.dict [(p!"type", (.str p!"integer")), (p!"description", (.str p!"Percentage to which the light should be dimmed to.")), (p!"minimum", (.int (0))), (p!"maximum", (.int (100)))])), (p!"sentAt", (.dict [(p!"$ref", (.str p!"#/components/schemas/sentAt"))]))]))])), (p!"sentAt", (.dict [(p!"type", (.str p!"string")), (p!"format", (.str p!"date-time")), (p!"description", (.str p!"Date and time when the message was sent."))]))])), (p!"securitySchemes", (.dict [(p!"apiKey", (.dict [(p!"type", (.str p!"apiKey")), (p!"in", (.str p!"user")), (p!"description", (.str p!"Provide your API key as the user and leave the password empty."))])), (p!"supportedOauthFlows", (.dict [(p!"type", (.str p!"oauth2")), (p!"description", (.str p!"Flows to support OAuth 2.0")), (p!"flows", (.dict [(p!"implicit", (.dict [(p!"authorizationUrl", (.str p!"https://authserver.example/auth")), (p!"availableScopes", (.dict [(p!"streetlights:on", (.str p!"Ability to switch lights on")), (p!"streetlights:off", (.str p!"Ability to switch lights off")), (p!"streetlights:dim", (.str p!"Ability to dim the lights"))]))])), (p!"password", (.dict [(p!"tokenUrl", (.str p!"https://authserver.example/token")), (p!"availableScopes", (.dict [(p!"streetlights:on", (.str p!"Ability to switch lights on")), (p!"streetlights:off", (.str p!"Ability to switch lights off")), (p!"streetlights:dim", (.str p!"Ability to dim the lights"))]))])), (p!"clientCredentials", (.dict [(p!"tokenUrl", (.str p!"https://authserver.example/token")), (p!"availableScopes", (.dict [(p!"streetlights:on", (.str p!"Ability to switch lights on")), (p!"streetlights:off", (.str p!"Ability to switch lights off")), (p!"streetlights:dim", (.str p!"Ability to dim the lights"))]))])), (p!"authorizationCode", (.dict [(p!"authorizationUrl", (.str p!"https://authserver.example/auth")), (p!"tokenUrl", (.str p!"https://authserver.example/token")), (p!"refreshUrl", (.str p!"https://authserver.example/refresh")), (p!"availableScopes", (.dict [(p!"streetlights:on", (.str p!"Ability to switch lights on")), (p!"streetlights:off", (.str p!"Ability to switch lights off")), (p!"streetlights:dim", (.str p!"Ability to dim the lights"))]))]))]))])), (p!"openIdConnectWellKnown", (.dict [(p!"type", (.str p!"openIdConnect")), (p!"openIdConnectUrl", (.str p!"https://authserver.example/.well-known"))]))])), (p!"parameters", (.dict [(p!"streetlightId", (.dict [(p!"description", (.str p!"The ID of the streetlight."))]))])), (p!"messageTraits", (.dict [(p!"commonHeaders", (.dict [(p!"headers", (.dict [(p!"type", (.str p!"object")), (p!"properties", (.dict [(p!"my-app-header", (.dict [(p!"type", (.str p!"integer")), (p!"minimum", (.int (0))), (p!"maximum", (.int (100)))]))]))]))]))])), (p!"operationTraits", (.dict [(p!"mqtt", (.dict [(p!"bindings", (.dict [(p!"mqtt", (.dict [(p!"qos", (.int (1)))]))]))]))]))]))])) : Option Unit).isSome = true := by decide +kernel

/-- `json_specs/valid/simple.json`, tests/test_base_validation.py:27 -/
example : (do
  discard (load .AsyncAPI3 (.dict [(p!"asyncapi", (.str p!"3.0.0")), (p!"info", (.dict [(p!"title", (.str p!"Account Service")), (p!"version", (.str p!"1.0.0")), (p!"description", (.str p!"This service is in charge of processing user signups"))])), (p!"channels", (.dict [(p!"userSignedup", (.dict [(p!"address", (.str p!"user/signedup")), (p!"messages", (.dict [(p!"UserSignedUp", (.dict [(p!"$ref", (.str p!"#/components/messages/UserSignedUp"))]))]))]))])), (p!"operations", (.dict [(p!"sendUserSignedup", (.dict [(p!"action", (.str p!"send")), (p!"channel", (.dict [(p!"$ref", (.str p!"#/channels/userSignedup"))])), (p!"messages", (.list [(.dict [(p!"$ref", (.str p!"#/channels/userSignedup/messages/UserSignedUp"))])]))]))])), (p!"components", (.dict [(p!"messages", (.dict [(p!"UserSignedUp", (.dict [(p!"payload", (.dict [(p!"type", (.str p!"object")), (p!"properties", (.dict [(p!"displayName", (.dict [(p!"type", (.str p!"string")), (p!"description", (.str p!"Name of the user"))])), (p!"email", (.dict [(p!"type", (.str p!"string")), (p!"format", (.str p!"email")), (p!"description", (.str p!"Email of the user"))]))]))]))]))]))]))])) : Option Unit).isSome = true := by decide +kernel

/-- `json_specs/valid/slack.json`, tests/test_base_validation.py:27 -/
example : (do
  discard (load .AsyncAPI3 (.dict [(p!"asyncapi", (.str p!"3.0.0")), (p!"id", (.str p!"wss://wss-primary.slack.com/websocket")), (p!"info", (.dict [(p!"title", (.str p!"Slack Real Time Messaging API")), (p!"version", (.str p!"1.0.0"))])), (p!"servers", (.dict [(p!"production", (.dict [(p!"host", (.str p!"slack.com")), (p!"pathname", (.str p!"/api/rtm.connect")), (p!"protocol", (.str p!"https")), (p!"protocolVersion", (.str p!"1.1")), (p!"security", (.list [(.dict [(p!"$ref", (.str p!"#/components/securitySchemes/token"))])]))]))])), (p!"channels", (.dict [(p!"root", (.dict [(p!"address", (.str p!"/")), (p!"messages", (.dict [(p!"outgoingMessage", (.dict [(p!"$ref", (.str p!"#/components/messages/outgoingMessage"))])), (p!"hello", (.dict [(p!"$ref", (.str p!"#/components/messages/hello"))])), (p!"connectionError", (.dict [(p!"$ref", (.str p!"#/components/messages/connectionError"))])), (p!"accountsChanged", (.dict [(p!"$ref", (.str p!"#/components/messages/accountsChanged"))])), (p!"botAdded", (.dict [(p!"$ref", (.str p!"#/components/messages/botAdded"))])), (p!"botChanged", (.dict [(p!"$ref", (.str p!"#/components/messages/botChanged"))])), (p!"channelArchive", (.dict [(p!"$ref", (.str p!"#/components/messages/channelArchive"))])), (p!"channelCreated", (.dict [(p!"$ref", (.str p!"#/components/messages/channelCreated"))])), (p!"channelDeleted", (.dict [(p!"$ref", (.str p!"#/components/messages/channelDeleted"))])), (p!"channelHistoryChanged", (.dict [(p!"$ref", (.str p!"#/components/messages/channelHistoryChanged"))])), (p!"channelJoined", (.dict [(p!"$ref", (.str p!"#/components/messages/channelJoined"))])), (p!"channelLeft", (.dict [(p!"$ref", (.str p!"#/components/messages/channelLeft"))])), (p!"channelMarked", (.dict [(p!"$ref", (.str p!"#/components/messages/channelMarked"))])), (p!"channelRename", (.dict [(p!"$ref", (.str p!"#/components/messages/channelRename"))])), (p!"channelUnarchive", (.dict [(p!"$ref", (.str p!"#/components/messages/channelUnarchive"))])), (p!"commandsChanged", (.dict [(p!"$ref", (.str p!"#/components/messages/commandsChanged"))])), (p!"dndUpdated", (.dict [(p!"$ref", (.str p!"#/components/messages/dndUpdated"))])), (p!"dndUpdatedUser", (.dict [(p!"$ref", (.str p!"#/components/messages/dndUpdatedUser"))])), (p!"emailDomainChanged", (.dict [(p!"$ref", (.str p!"#/components/messages/emailDomainChanged"))])), (p!"emojiRemoved", (.dict [(p!"$ref", (.str p!"#/components/messages/emojiRemoved"))])), (p!"emojiAdded", (.dict [(p!"$ref", (.str p!"#/components/messages/emojiAdded"))])), (p!"fileChange", (.dict [(p!"$ref", (.str p!"#/components/messages/fileChange"))])), (p!"fileCommentAdded", (.dict [(p!"$ref", (.str p!"#/components/messages/fileCommentAdded"))])), (p!"fileCommentDeleted", (.dict [(p!"$ref", (.str p!"#/components/messages/fileCommentDeleted"))])), (p!"fileCommentEdited", (.dict [(p!"$ref", (.str p!"#/components/messages/fileCommentEdited"))])), (p!"fileCreated", (.dict [(p!"$ref", (.str p!"#/components/messages/fileCreated"))])), (p!"fileDeleted", (.dict [(p!"$ref", (.str p!"#/components/messages/fileDeleted"))])), (p!"filePublic", (.dict [(p!"$ref", (.str p!"#/components/messages/filePublic"))])), (p!"fileShared", (.dict [(p!"$ref", (.str p!"#/components/messages/fileShared"))])), (p!"fileUnshared", (.dict [(p!"$ref", (.str p!"#/components/messages/fileUnshared"))])), (p!"goodbye", (.dict [(p!"$ref", (.str p!"#/components/messages/goodbye"))])), (p!"groupArchive", (.dict [(p!"$ref", (.str p!"#/components/messages/groupArchive"))])), (p!"groupClose", (.dict [(p!"$ref", (.str p!"#/components/messages/groupClose"))])), (p!"groupHistoryChanged", (.dict [(p!"$ref", (.str p!"#/components/messages/groupHistoryChanged"))])), (p!"groupJoined", (.dict [(p!"$ref", (.str p!"#/components/messages/groupJoined"))])), (p!"groupLeft", (.dict [(p!"$ref", (.str p!"#/components/messages/groupLeft"))])), (p!"groupMarked", (.dict [(p!"$ref", (.str p!"#/components/messages/groupMarked"))])), (p!"groupOpen", (.dict [(p!"$ref", (.str p!"#/components/messages/groupOpen"))])), (p!"groupRename", (.dict [(p!"$ref", (.str p!"#/components/messages/groupRename"))])), (p!"groupUnarchive", (.dict [(p!"$ref", (.str p!"#/components/messages/groupUnarchive"))])), (p!"imClose", (.dict [(p!"$ref", (.str p!"#/components/messages/imClose"))])), (p!"imCreated", (.dict [(p!"$ref", (.str p!"#/components/messages/imCreated"))])), (p!"imMarked", (.dict [(p!"$ref", (.str p!"#/components/messages/imMarked"))])), (p!"imOpen", (.dict [(p!"$ref", (.str p!"#/components/messages/imOpen"))])), (p!"manualPresenceChange", (.dict [(p!"$ref", (.str p!"#/components/messages/manualPresenceChange"))])), (p!"memberJoinedChannel", (.dict [(p!"$ref", (.str p!"#/components/messages/memberJoinedChannel"))])), (p!"message", (.dict [(p!"$ref", (.str p!"#/components/messages/message"))]))]))]))])), (p!"operations", (.dict [(p!"receiveOutgoingMessage", (.dict [(p!"action", (.str p!"receive")), (p!"channel", (.dict [(p!"$ref", (.str p!"#/channels/root"))])), (p!"messages", (.list [(.dict [(p!"$ref", (.str p!"#/channels/root/messages/outgoingMessage"))])]))])), (p!"sendMessages", (.dict [(p!"action", (.str p!"send")), (p!"channel", (.dict [(p!"$ref", (.str p!"#/channels/root"))])), (p!"messages", (.list [(.dict [(p!"$ref", (.str p!"#/channels/root/messages/hello"))]), (.dict [(p!"$ref", (.str p!"#/channels/root/messages/connectionError"))]), (.dict [(p!"$ref", (.str p!"#/channels/root/messages/accountsChanged"))]), (.dict [(p!"$ref", (.str p!"#/channels/root/messages/botAdded"))]), (.dict [(p!"$ref", (.str p!"#/channels/root/messages/botChanged"))]), (.dict [(p!"$ref", (.str p!"#/channels/root/messages/channelArchive"))]), (.dict [(p!"$ref", (.str p!"#/channels/root/messages/channelCreated"))]), (.dict [(p!"$ref", (.str p!"#/channels/root/messages/channelDeleted"))]), (.dict [(p!"$ref", (.str p!"#/channels/root/messages/channelHistoryChanged"))]), (.dict [(p!"$ref", (.str p!"#/channels/root/messages/channelJoined"))]), (.dict [(p!"$ref", (.str p!"#/channels/root/messages/channelLeft"))]), (.dict [(p!"$ref", (.str p!"#/channels/root/messages/channelMarked"))]), (.dict [(p!"$ref", (.str p!"#/channels/root/messages/channelRename"))]), (.dict [(p!"$ref", (.str p!"#/channels/root/messages/channelUnarchive"))]), (.dict [(p!"$ref", (.str p!"#/channels/root/messages/commandsChanged"))]), (.dict [(p!"$ref", (.str p!"#/channels/root/messages/dndUpdated"))]), (.dict [(p!"$ref", (.str p!"#/channels/root/messages/dndUpdatedUser"))]), (.dict [(p!"$ref", (.str p!"#/channels/root/messages/emailDomainChanged"))]), (.dict [(p!"$ref", (.str p!"#/channels/root/messages/emojiRemoved"))]), (.dict [(p!"$ref", (.str p!"#/channels/root/messages/emojiAdded"))]), (.dict [(p!"$ref", (.str p!"#/channels/root/messages/fileChange"))]), (.dict [(p!"$ref", (.str p!"#/channels/root/messages/fileCommentAdded"))]), (.dict [(p!"$ref", (.str p!"#/channels/root/messages/fileCommentDeleted"))]), (.dict [(p!"$ref", (.str p!"#/channels/root/messages/fileCommentEdited"))]), (.dict [(p!"$ref", (.str p!"#/channels/root/messages/fileCreated"))]), (.dict [(p!"$ref", (.str p!"#/channels/root/messages/fileDeleted"))]), (.dict [(p!"$ref", (.str p!"#/channels/root/messages/filePublic"))]), (.dict [(p!"$ref", (.str p!"#/channels/root/messages/fileShared"))]), (.dict [(p!"$ref", (.str p!"#/channels/root/messages/fileUnshared"))]), (.dict [(p!"$ref", (.str p!"#/channels/root/messages/goodbye"))]), (.dict [(p!"$ref", (.str p!"#/channels/root/messages/groupArchive"))]), (.dict [(p!"$ref", (.str p!"#/channels/root/messages/groupClose"))]), (.dict [(p!"$ref", (.str p!"#/channels/root/messages/groupHistoryChanged"))]), (.dict [(p!"$ref", (.str p!"#/channels/root/messages/groupJoined"))]), (.dict [(p!"$ref", (.str p!"#/channels/root/messages/groupLeft"))]), (.dict [(p!"$ref", (.str p!"#/channels/root/messages/groupMarked"))]), (.dict [(p!"$ref", (.str p!"#/channels/root/messages/groupOpen"))]), (.dict [(p!"$ref", (.str p!"#/channels/root/messages/groupRename"))]), (.dict [(p!"$ref", (.str p!"#/channels/root/messages/groupUnarchive"))]), (.dict [(p!"$ref", (.str p!"#/channels/root/messages/imClose"))]), (.dict [(p!"$ref", (.str p!"#/channels/root/messages/imCreated"))]), (.dict [(p!"$ref", (.str p!"#/channels/root/messages/imMarked"))]), (.dict [(p!"$ref", (.str p!"#/channels/root/messages/imOpen"))]), (.dict [(p!"$ref", (.str p!"#/channels/root/messages/manualPresenceChange"))]), (.dict [(p!"$ref", (.str p!"#/channels/root/messages/memberJoinedChannel"))]), (.dict [(p!"$ref", (.str p!"#/channels/root/messages/message"))])]))]))])), (p!"components", (.dict [(p!"securitySchemes", (.dict [(p!"token", (.dict [(p!"type", (.str p!"httpApiKey")), (p!"name", (.str p!"token")), (p!"in", (.str p!"query"))]))])), (p!"schemas", (.dict [(p!"attachment", (.dict [(p!"type", (.str p!"object")), (p!"properties", (.dict [(p!"fallback", (.dict [(p!"type", (.str p!"string"))])), (p!"color", (.dict [(p!"type", (.str p!"string"))])), (p!"pretext", (.dict [(p!"type", (.str p!"string"))])), (p!"author_name", (.dict [(p!"type", (.str p!"string"))])), (p!"author_link", (.dict [(p!"type", (.str p!"string")), (p!"format", (.str p!"uri"))])), (p!"author_icon", (.dict [(p!"type", (.str p!"string")), (p!"format", (.str p!"uri"))])), (p!"title", (.dict [(p!"type", (.str p!"string"))])), (p!"title_link", (.dict [(p!"type", (.str p!"string")), (p!"format", (.str p!"uri"))])), (p!"text", (.dict [(p!"type", (.str p!"string"))])), (p!"fields", (.dict [(p!"type", (.str p!"array")), (p!"items", (.dict [(p!"type", (.str p!"object")), (p!"properties", (.dict [(p!"title", (.dict [(p!"type", (.str p!"string"))])), (p!"value", (.dict [(p!"type", (.str p!"string"))])), (p!"short", (.dict [(p!"type", (.str p!"boolean"))]))]))]))])), (p!"image_url", (.dict [(p!"type", (.str p!"string")), (p!"format", (.str p!"uri"))])), (p!"thumb_url", (.dict [(p!"type", (.str p!"string")), (p!"format", (.str p!"uri"))])), (p!"footer", (.dict [(p!"type", (.str p!"string"))])), (p!"footer_icon", (.dict [(p!"type", (.str p!"string")), (p!"format", (.str p!"uri"))])), (p!"ts", (.dict [(p!"type", (.str p!"number"))]))]))]))])), (p!"messages", (.dict [(p!"hello", (.dict [(p!"summary", (.str p!"First event received upon connection.")), (p!"payload", (.dict [(p!"type", (.str p!"object")), (p!"properties", (.dict [(p!"type", (.dict [(p!"type", (.str p!"string")), (p!"enum", (.list [(.str p!"hello")]))]))]))]))])), (p!"connectionError", (.dict [(p!"summary", (.str p!"Event received when a connection error happens.")), (p!"payload", (.dict [(p!"type", (.str p!"object")), (p!"properties", (.dict [(p!"type", (.dict [(p!"type", (.str p!"string")), (p!"enum", (.list [(.str p!"error")]))])), (p!"error", (.dict [(p!"type", (.str p!"object")), (p!"properties", (.dict [(p!"code", (.dict [(p!"type", (.str p!"number"))])), (p!"msg", (.dict [(p!"type", (.str p!"string"))]))]))]))]))]))])), (p!"accountsChanged", (.dict [(p!"summary", (.str p!"The list of accounts a user is signed into has changed.")), (p!"payload", (.dict [(p!"type", (.str p!"object")), (p!"properties", (.dict [(p!"type", (.dict [(p!"type", (.str p!"string")), (p!"enum", (.list [(.str p!"accounts_changed")]))]))]))]))])), (p!"botAdded", (.dict [(p!"summary", (.str p!"A bot user was added.")), (p!"payload", (.dict [(p!"type", (.str p!"object")), (p!"properties", (.dict [(p!"type", (.dict [(p!"type", (.str p!"string")), (p!"enum", (.list [(.str p!"bot_added")]))])), (p!"bot", (.dict [(p!"type", (.str p!"object")), (p!"properties", (.dict [(p!"id", (.dict [(p!"type", (.str p!"string"))])), (p!"app_id", (.dict [(p!"type", (.str p!"string"))])), (p!"name", (.dict [(p!"type", (.str p!"string"))])), (p!"icons", (.dict [(p!"type", (.str p!"object")), (p!"additionalProperties", (.dict [(p!"type", (.str p!"string"))]))]))]))]))]))]))])), (p!"botChanged", (.dict [(p!"summary", (.str p!"A bot user was changed.")), (p!"payload", (.dict [(p!"type", (.str p!"object")), (p!"properties", (.dict [(p!"type", (.dict [(p!"type", (.str p!"string")), (p!"enum", (.list [(.str p!"bot_added")]))])), (p!"bot", (.dict [(p!"type", (.str p!"object")), (p!"properties", (.dict [(p!"id", (.dict [(p!"type", (.str p!"string"))])), (p!"app_id", (.dict [(p!"type", (.str p!"string"))])), (p!"name", (.dict [(p!"type", (.str p!"string"))])), (p!"icons", (.dict [(p!"type", (.str p!"object")), (p!"additionalProperties", (.dict [(p!"type", (.str p!"string"))]))]))]))]))]))]))])), (p!"channelArchive", (.dict [(p!"summary", (.str p!"A channel was archived.")), (p!"payload", (.dict [(p!"type", (.str p!"object")), (p!"properties", (.dict [(p!"type", (.dict [(p!"type", (.str p!"string")), (p!"enum", (.list [(.str p!"channel_archive")]))])), (p!"channel", (.dict [(p!"type", (.str p!"string"))])), (p!"user", (.dict [(p!"type", (.str p!"string"))]))]))]))])), (p!"channelCreated", (.dict [(p!"summary", (.str p!"A channel was created.")), (p!"payload", (.dict [(p!"type", (.str p!"object")), (p!"properties", (.dict [(p!"type", (.dict [(p!"type", (.str p!"string")), (p!"enum", (.list [(.str p!"channel_created")]))])), (p!"channel", (.dict [(p!"type", (.str p!"object")), (p!"properties", (.dict [(p!"id", (.dict [(p!"type", (.str p!"string"))])), (p!"name", (.dict [(p!"type", (.str p!"string"))])), (p!"created", (.dict [(p!"type", (.str p!"number"))])), (p!"creator", (.dict [(p!"type", (.str p!"string"))]))]))]))]))]))])), (p!"channelDeleted", (.dict [(p!"summary", (.str p!"A channel was deleted.")), (p!"payload", (.dict [(p!"type", (.str p!"object")), (p!"properties", (.dict [(p!"type", (.dict [(p!"type", (.str p!"string")), (p!"enum", (.list [(.str p!"channel_deleted")]))])), (p!"channel", (.dict [(p!"type", (.str p!"string"))]))]))]))])), (p!"channelHistoryChanged", (.dict [(p!"summary", (.str p!"Bulk updates were made to a channel's history.")), (p!"payload", (.dict [(p!"type", (.str p!"object")), (p!"properties", (.dict [(p!"type", (.dict [(p!"type", (.str p!"string")), (p!"enum", (.list [(.str p!"channel_history_changed")]))])), (p!"latest", (.dict [(p!"type", (.str p!"string"))])), (p!"ts", (.dict [(p!"type", (.str p!"string"))])), (p!"event_ts", (.dict [(p!"type", (.str p!"string"))]))]))]))])), (p!"channelJoined", (.dict [(p!"summary", (.str p!"You joined a channel.")), (p!"payload", (.dict [(p!"type", (.str p!"object")), (p!"properties", (.dict [(p!"type", (.dict [(p!"type", (.str p!"string")), (p!"enum", (.list [(.str p!"channel_joined")]))])), (p!"channel", (.dict [(p!"type", (.str p!"object")), (p!"properties", (.dict [(p!"id", (.dict [(p!"type", (.str p!"string"))])), (p!"name", (.dict [(p!"type", (.str p!"string"))])), (p!"created", (.dict [(p!"type", (.str p!"number"))])), (p!"creator", (.dict [(p!"type", (.str p!"string"))]))]))]))]))]))])), (p!"channelLeft", (.dict [(p!"summary", (.str p!"You left a channel.")), (p!"payload", (.dict [(p!"type", (.str p!"object")), (p!"properties", (.dict [(p!"type", (.dict [(p!"type", (.str p!"string")), (p!"enum", (.list [(.str p!"channel_left")]))])), (p!"channel", (.dict [(p!"type", (.str p!"string"))]))]))]))])), (p!"channelMarked", (.dict [(p!"summary", (.str p!"Your channel read marker was updated.")), (p!"payload", (.dict [(p!"type", (.str p!"object")), (p!"properties", (.dict [(p!"type", (.dict [(p!"type", (.str p!"string")), (p!"enum", (.list [(.str p!"channel_marked")]))])), (p!"channel", (.dict [(p!"type", (.str p!"string"))])), (p!"ts", (.dict [(p!"type", (.str p!"string"))]))]))]))])), (p!"channelRename", (.dict [(p!"summary", (.str p!"A channel was renamed.")), (p!"payload", (.dict [(p!"type", (.str p!"object")), (p!"properties", (.dict [(p!"type", (.dict [(p!"type", (.str p!"string")), (p!"enum", (.list [(.str p!"channel_rename")]))])), (p!"channel", (.dict [(p!"type", (.str p!"object")), (p!"properties", (.dict [(p!"id", (.dict [(p!"type", (.str p!"string"))])), (p!"name", (.dict [(p!"type", (.str p!"string"))])), (p!"created", (.dict [(p!"type", (.str p!"number"))]))]))]))]))]))])), (p!"channelUnarchive", (.dict [(p!"summary", (.str p!"A channel was unarchived.")), (p!"payload", (.dict [(p!"type", (.str p!"object")), (p!"properties", (.dict [(p!"type", (.dict [(p!"type", (.str p!"string")), (p!"enum", (.list [(.str p!"channel_unarchive")]))])), (p!"channel", (.dict [(p!"type", (.str p!"string"))])), (p!"user", (.dict [(p!"type", (.str p!"string"))]))]))]))])), (p!"commandsChanged", (.dict [(p!"summary", (.str p!"A slash command has been added or changed.")), (p!"payload", (.dict [(p!"type", (.str p!"object")), (p!"properties", (.dict [(p!"type", (.dict [(p!"type", (.str p!"string")), (p!"enum", (.list [(.str p!"commands_changed")]))])), (p!"event_ts", (.dict [(p!"type", (.str p!"string"))]))]))]))])), (p!"dndUpdated", (.dict [(p!"summary", (.str p!"Do not Disturb settings changed for the current user.")), (p!"payload", (.dict [(p!"type", (.str p!"object")), (p!"properties", (.dict [(p!"type", (.dict [(p!"type", (.str p!"string")), (p!"enum", (.list [(.str p!"dnd_updated")]))])), (p!"user", (.dict [(p!"type", (.str p!"string"))])), (p!"dnd_status", (.dict [(p!"type", (.str p!"object")), (p!"properties", (.dict [(p!"dnd_enabled", (.dict [(p!"type", (.str p!"boolean"))])), (p!"next_dnd_start_ts", (.dict [(p!"type", (.str p!"number"))])), (p!"next_dnd_end_ts", (.dict [(p!"type", (.str p!"number"))])), (p!"snooze_enabled", (.dict [(p!"type", (.str p!"boolean"))])), (p!"snooze_endtime", (.dict [(p!"type", (.str p!"number"))]))]))]))]))]))])), (p!"dndUpdatedUser", (.dict [(p!"summary", (.str p!"Do not Disturb settings changed for a member.")), (p!"payload", (.dict [(p!"type", (.str p!"object")), (p!"properties", (.dict [(p!"type", (.dict [(p!"type", (.str p!"string")), (p!"enum", (.list [(.str p!"dnd_updated_user")]))])), (p!"user", (.dict [(p!"type", (.str p!"string"))])), (p!"dnd_status", (.dict [(p!"type", (.str p!"object")), (p!"properties", (.dict [(p!"dnd_enabled", (.dict [(p!"type", (.str p!"boolean"))])), (p!"next_dnd_start_ts", (.dict [(p!"type", (.str p!"number"))])), (p!"next_dnd_end_ts", (.dict [(p!"type", (.str p!"number"))]))]))]))]))]))])), (p!"emailDomainChanged", (.dict [(p!"summary", (.str p!"The workspace email domain has changed.")), (p!"payload", (.dict [(p!"type", (.str p!"object")), (p!"properties", (.dict [(p!"type", (.dict [(p!"type", (.str p!"string")), (p!"enum", (.list [(.str p!"email_domain_changed")]))])), (p!"email_domain", (.dict [(p!"type", (.str p!"string"))])), (p!"event_ts", (.dict [(p!"type", (.str p!"string"))]))]))]))])), (p!"emojiRemoved", (.dict [(p!"summary", (.str p!"A custom emoji has been removed.")), (p!"payload", (.dict [(p!"type", (.str p!"object")), (p!"properties", (.dict [(p!"type", (.dict [(p!"type", (.str p!"string")), (p!"enum", (.list [(.str p!"emoji_changed")]))])), (p!"subtype", (.dict [(p!"type", (.str p!"string")), (p!"enum", (.list [(.str p!"remove")]))])), (p!"names", (.dict [(p!"type", (.str p!"array")), (p!"items", (.dict [(p!"type", (.str p!"string"))]))])), (p!"event_ts", (.dict [(p!"type", (.str p!"string"))]))]))]))])), (p!"emojiAdded", (.dict [(p!"summary", (.str p!"A custom emoji has been added.")), (p!"payload", (.dict [(p!"type", (.str p!"object")), (p!"properties", (.dict [(p!"type", (.dict [(p!"type", (.str p!"string")), (p!"enum", (.list [(.str p!"emoji_changed")]))])), (p!"subtype", (.dict [(p!"type", (.str p!"string")), (p!"enum", (.list [(.str p!"add")]))])), (p!"name", (.dict [(p!"type", (.str p!"string"))])), (p!"value", (.dict [(p!"type", (.str p!"string")), (p!"format", (.str p!"uri"))])), (p!"event_ts", (.dict [(p!"type", (.str p!"string"))]))]))]))])), (p!"fileChange", (.dict [(p!"summary", (.str p!"A file was changed.")), (p!"payload", (.dict [(p!"type", (.str p!"object")), (p!"properties", (.dict [(p!"type", (.dict [(p!"type", (.str p!"string")), (p!"enum", (.list [(.str p!"file_change")]))])), (p!"file_id", (.dict [(p!"type", (.str p!"string"))])), (p!"file", (.dict [(p!"type", (.str p!"object")), (p!"properties", (.dict [(p!"id", (.dict [(p!"type", (.str p!"string"))]))]))]))]))]))])), (p!"fileCommentAdded", (.dict [(p!"summary", (.str p!"A file comment was added.")), (p!"payload", (.dict [(p!"type", (.str p!"object")), (p!"properties", (.dict [(p!"type", (.dict [(p!"type", (.str p!"string")), (p!"enum", (.list [(.str p!"file_comment_added")]))])), (p!"comment", (.dict [])), (p!"file_id", (.dict [(p!"type", (.str p!"string"))])), (p!"file", (.dict [(p!"type", (.str p!"object")), (p!"properties", (.dict [(p!"id", (.dict [(p!"type", (.str p!"string"))]))]))]))]))]))])), (p!"fileCommentDeleted", (.dict [(p!"summary", (.str p!"A file comment was deleted.")), (p!"payload", (.dict [(p!"type", (.str p!"object")), (p!"properties", (.dict [(p!"type", (.dict [(p!"type", (.str p!"string")), (p!"enum", (.list [(.str p!"file_comment_deleted")]))])), (p!"comment", (.dict [(p!"type", (.str p!"string"))])), (p!"file_id", (.dict [(p!"type", (.str p!"string"))])), (p!"file", (.dict [(p!"type", (.str p!"object")), (p!"properties", (.dict [(p!"id", (.dict [(p!"type", (.str p!"string"))]))]))]))]))]))])), (p!"fileCommentEdited", (.dict [(p!"summary", (.str p!"A file comment was edited.")), (p!"payload", (.dict [(p!"type", (.str p!"object")), (p!"properties", (.dict [(p!"type", (.dict [(p!"type", (.str p!"string")), (p!"enum", (.list [(.str p!"file_comment_edited")]))])), (p!"comment", (.dict [])), (p!"file_id", (.dict [(p!"type", (.str p!"string"))])), (p!"file", (.dict [(p!"type", (.str p!"object")), (p!"properties", (.dict [(p!"id", (.dict [(p!"type", (.str p!"string"))]))]))]))]))]))])), (p!"fileCreated", (.dict [(p!"summary", (.str p!"A file was created.")), (p!"payload", (.dict [(p!"type", (.str p!"object")), (p!"properties", (.dict [(p!"type", (.dict [(p!"type", (.str p!"string")), (p!"enum", (.list [(.str p!"file_created")]))])), (p!"file_id", (.dict [(p!"type", (.str p!"string"))])), (p!"file", (.dict [(p!"type", (.str p!"object")), (p!"properties", (.dict [(p!"id", (.dict [(p!"type", (.str p!"string"))]))]))]))]))]))])), (p!"fileDeleted", (.dict [(p!"summary", (.str p!"A file was deleted.")), (p!"payload", (.dict [(p!"type", (.str p!"object")), (p!"properties", (.dict [(p!"type", (.dict [(p!"type", (.str p!"string")), (p!"enum", (.list [(.str p!"file_deleted")]))])), (p!"file_id", (.dict [(p!"type", (.str p!"string"))])), (p!"event_ts", (.dict [(p!"type", (.str p!"string"))]))]))]))])), (p!"filePublic", (.dict [(p!"summary", (.str p!"A file was made public.")), (p!"payload", (.dict [(p!"type", (.str p!"object")), (p!"properties", (.dict [(p!"type", (.dict [(p!"type", (.str p!"string")), (p!"enum", (.list [(.str p!"file_public")]))])), (p!"file_id", (.dict [(p!"type", (.str p!"string"))])), (p!"file", (.dict [(p!"type", (.str p!"object")), (p!"properties", (.dict [(p!"id", (.dict [(p!"type", (.str p!"string"))]))]))]))]))]))])), (p!"fileShared", (.dict [(p!"summary", (.str p!"A file was shared.")), (p!"payload", (.dict [(p!"type", (.str p!"object")), (p!"properties", (.dict [(p!"type", (.dict [(p!"type", (.str p!"string")), (p!"enum", (.list [(.str p!"file_shared")]))])), (p!"file_id", (.dict [(p!"type", (.str p!"string"))])), (p!"file", (.dict [(p!"type", (.str p!"object")), (p!"properties", (.dict [(p!"id", (.dict [(p!"type", (.str p!"string"))]))]))]))]))]))])), (p!"fileUnshared", (.dict [(p!"summary", (.str p!"A file was unshared.")), (p!"payload", (.dict [(p!"type", (.str p!"object")), (p!"properties", (.dict [(p!"type", (.dict [(p!"type", (.str p!"string")), (p!"enum", (.list [(.str p!"file_unshared")]))])), (p!"file_id", (.dict [(p!"type", (.str p!"string"))])), (p!"file", (.dict [(p!"type", (.str p!"object")), (p!"properties", (.dict [(p!"id", (.dict [(p!"type", (.str p!"string"))]))]))]))]))]))])), (p!"goodbye", (.dict [(p!"summary", (.str p!"The server intends to close the connection soon.")), (p!"payload", (.dict [(p!"type", (.str p!"object")), (p!"properties", (.dict [(p!"type", (.dict [(p!"type", (.str p!"string")), (p!"enum", (.list [(.str p!"goodbye")]))]))]))]))])), (p!"groupArchive", (.dict [(p!"summary", (.str p!"A private channel was archived.")), (p!"payload", (.dict [(p!"type", (.str p!"object")), (p!"properties", (.dict [(p!"type", (.dict [(p!"type", (.str p!"string")), (p!"enum", (.list [(.str p!"group_archive")]))])), (p!"channel", (.dict [(p!"type", (.str p!"string"))]))]))]))])), (p!"groupClose", (.dict [(p!"summary", (.str p!"You closed a private channel.")), (p!"payload", (.dict [(p!"type", (.str p!"object")), (p!"properties", (.dict [(p!"type", (.dict [(p!"type", (.str p!"string")), (p!"enum", (.list [(.str p!"group_close")]))])), (p!"user", (.dict [(p!"type", (.str p!"string"))])), (p!"channel", (.dict [(p!"type", (.str p!"string"))]))]))]))])), (p!"groupHistoryChanged", (.dict [(p!"summary", (.str p!"Bulk updates were made to a private channel's history.")), (p!"payload", (.dict [(p!"type", (.str p!"object")), (p!"properties", (.dict [(p!"type", (.dict [(p!"type", (.str p!"string")), (p!"enum", (.list [(.str p!"group_history_changed")]))])), (p!"latest", (.dict [(p!"type", (.str p!"string"))])), (p!"ts", (.dict [(p!"type", (.str p!"string"))])), (p!"event_ts", (.dict [(p!"type", (.str p!"string"))]))]))]))])), (p!"groupJoined", (.dict [(p!"summary", (.str p!"You joined a private channel.")), (p!"payload", (.dict [(p!"type", (.str p!"object")), (p!"properties", (.dict [(p!"type", (.dict [(p!"type", (.str p!"string")), (p!"enum", (.list [(.str p!"group_joined")]))])), (p!"channel", (.dict [(p!"type", (.str p!"object")), (p!"properties", (.dict [(p!"id", (.dict [(p!"type", (.str p!"string"))])), (p!"name", (.dict [(p!"type", (.str p!"string"))])), (p!"created", (.dict [(p!"type", (.str p!"number"))])), (p!"creator", (.dict [(p!"type", (.str p!"string"))]))]))]))]))]))])), (p!"groupLeft", (.dict [(p!"summary", (.str p!"You left a private channel.")), (p!"payload", (.dict [(p!"type", (.str p!"object")), (p!"properties", (.dict [(p!"type", (.dict [(p!"type", (.str p!"string")), (p!"enum", (.list [(.str p!"group_left")]))])), (p!"channel", (.dict [(p!"type", (.str p!"string"))]))]))]))])), (p!"groupMarked", (.dict [(p!"summary", (.str p!"A private channel read marker was updated.")), (p!"payload", (.dict [(p!"type", (.str p!"object")), (p!"properties", (.dict [(p!"type", (.dict [(p!"type", (.str p!"string")), (p!"enum", (.list [(.str p!"group_marked")]))])), (p!"channel", (.dict [(p!"type", (.str p!"string"))])), (p!"ts", (.dict [(p!"type", (.str p!"string"))]))]))]))])), (p!"groupOpen", (.dict [(p!"summary", (.str p!"You opened a private channel.")), (p!"payload", (.dict [(p!"type", (.str p!"object")), (p!"properties", (.dict [(p!"type", (.dict [(p!"type", (.str p!"string")), (p!"enum", (.list [(.str p!"group_open")]))])), (p!"user", (.dict [(p!"type", (.str p!"string"))])), (p!"channel", (.dict [(p!"type", (.str p!"string"))]))]))]))])), (p!"groupRename", (.dict [(p!"summary", (.str p!"A private channel was renamed.")), (p!"payload", (.dict [(p!"type", (.str p!"object")), (p!"properties", (.dict [(p!"type", (.dict [(p!"type", (.str p!"string")), (p!"enum", (.list [(.str p!"group_rename")]))])), (p!"channel", (.dict [(p!"type", (.str p!"object")), (p!"properties", (.dict [(p!"id", (.dict [(p!"type", (.str p!"string"))])), (p!"name", (.dict [(p!"type", (.str p!"string"))])), (p!"created", (.dict [(p!"type", (.str p!"number"))]))]))]))]))]))])), (p!"groupUnarchive", (.dict [(p!"summary", (.str p!"A private channel was unarchived.")), (p!"payload", (.dict [(p!"type", (.str p!"object")), (p!"properties", (.dict [(p!"type", (.dict [(p!"type", (.str p!"string")), (p!"enum", (.list [(.str p!"group_unarchive")]))])), (p!"channel", (.dict [(p!"type", (.str p!"string"))])), (p!"user", (.dict [(p!"type", (.str p!"string"))]))]))]))])), (p!"imClose", (.dict [(p!"summary", (.str p!"You closed a DM.")), (p!"payload", (.dict [(p!"type", (.str p!"object")), (p!"properties", (.dict [(p!"type", (.dict [(p!"type", (.str p!"string")), (p!"enum", (.list [(.str p!"im_close")]))])), (p!"channel", (.dict [(p!"type", (.str p!"string"))])), (p!"user", (.dict [(p!"type", (.str p!"string"))]))]))]))])), (p!"imCreated", (.dict [(p!"summary", (.str p!"A DM was created.")), (p!"payload", (.dict [(p!"type", (.str p!"object")), (p!"properties", (.dict [(p!"type", (.dict [(p!"type", (.str p!"string")), (p!"enum", (.list [(.str p!"im_created")]))])), (p!"channel", (.dict [(p!"type", (.str p!"object")), (p!"properties", (.dict [(p!"id", (.dict [(p!"type", (.str p!"string"))])), (p!"name", (.dict [(p!"type", (.str p!"string"))])), (p!"created", (.dict [(p!"type", (.str p!"number"))])), (p!"creator", (.dict [(p!"type", (.str p!"string"))]))]))])), (p!"user", (.dict [(p!"type", (.str p!"string"))]))]))]))])), (p!"imMarked", (.dict [(p!"summary", (.str p!"A direct message read marker was updated.")), (p!"payload", (.dict [(p!"type", (.str p!"object")), (p!"properties", (.dict [(p!"type", (.dict [(p!"type", (.str p!"string")), (p!"enum", (.list [(.str p!"im_marked")]))])), (p!"channel", (.dict [(p!"type", (.str p!"string"))])), (p!"ts", (.dict [(p!"type", (.str p!"string"))]))]))]))])), (p!"imOpen", (.dict [(p!"summary", (.str p!"You opened a DM.")), (p!"payload", (.dict [(p!"type", (.str p!"object")), (p!"properties", (.dict [(p!"type", (.dict [(p!"type", (.str p!"string")), (p!"enum", (.list [(.str p!"im_open")]))])), (p!"channel", (.dict [(p!"type", (.str p!"string"))])), (p!"user", (.dict [(p!"type", (.str p!"string"))]))]))]))])), (p!"manualPresenceChange", (.dict [(p!"summary", (.str p!"You manually updated your presence.")), (p!"payload", (.dict [(p!"type", (.str p!"object")), (p!"properties", (.dict [(p!"type", (.dict [(p!"type", (.str p!"string")), (p!"enum", (.list [(.str p!"manual_presence_change")]))])), (p!"presence", (.dict [(p!"type", (.str p!"string"))]))]))]))])), (p!"memberJoinedChannel", (.dict [(p!"summary", (.str p!"A user joined a public or private channel.")), (p!"payload", (.dict [(p!"type", (.str p!"object")), (p!"properties", (.dict [(p!"type", (.dict [(p!"type", (.str p!"string")), (p!"enum", (.list [(.str p!"member_joined_channel")]))])), (p!"user", (.dict [(p!"type", (.str p!"string"))])), (p!"channel", (.dict [(p!"type", (.str p!"string"))])), (p!"channel_type", (.dict [(p!"type", (.str p!"string")), (p!"enum", (.list [(.str p!"C"), (.str p!"G")]))])), (p!"team", (.dict [(p!"type", (.str p!"string"))])), (p!"inviter", (.dict [(p!"type", (.str p!"string"))]))]))]))])), (p!"memberLeftChannel", (.dict [(p!"summary", (.str p!"A user left a public or private channel.")), (p!"payload", (.dict [(p!"type", (.str p!"object")), (p!"properties", (.dict [(p!"type", (.dict [(p!"type", (.str p!"string")), (p!"enum", (.list [(.str p!"member_left_channel")]))])), (p!"user", (.dict [(p!"type", (.str p!"string"))])), (p!"channel", (.dict [(p!"type", (.str p!"string"))])), (p!"channel_type", (.dict [(p!"type", (.str p!"string")), (p!"enum", (.list [(.str p!"C"), (.str p!"G")]))])), (p!"team", (.dict [(p!"type", (.str p!"string"))]))]))]))])), (p!"message", (.dict [(p!"summary", (.str p!"A message was sent to a channel.")), (p!"payload", (.dict [(p!"type", (.str p!"object")), (p!"properties", (.dict [(p!"type", (.dict [(p!"type", (.str p!"string")), (p!"enum", (.list [(.str p!"message")]))])), (p!"user", (.dict [(p!"type", (.str p!"string"))])), (p!"channel", (.dict [(p!"type", (.str p!"string"))])), (p!"text", (.dict [(p!"type", (.str p!"string"))])), (p!"ts", (.dict [(p!"type", (.str p!"string"))])), (p!"attachments", (.dict [(p!"type", (.str p!"array")), (p!"items", (.dict [(p!"$ref", (.str p!"#/components/schemas/attachment"))]))])), (p!"edited", (.dict [(p!"type", (.str p!"object")), (p!"properties", (.dict [(p!"user", (.dict [(p!"type", (.str p!"string"))])), (p!"ts", (.dict [(p!"type", (.str p!"string"))]))]))]))]))]))])), (p!"outgoingMessage", (.dict [(p!"summary", (.str p!"A message was sent to a channel.")), (p!"payload", (.dict [(p!"type", (.str p!"object")), (p!"properties", (.dict [(p!"id", (.dict [(p!"type", (.str p!"number"))])), (p!"type", (.dict [(p!"type", (.str p!"string")), (p!"enum", (.list [(.str p!"message")]))])), (p!"channel", (.dict [(p!"type", (.str p!"string"))])), (p!"text", (.dict [(p!"type", (.str p!"string"))]))]))]))]))]))]))])) : Option Unit).isSome = true := by decide +kernel

/-- `json_specs/valid/websockets.json`, tests/test_base_validation.py:27 -/
example : (do
  discard (load .AsyncAPI3 (.dict [(p!"asyncapi", (.str p!"3.0.0")), (p!"info", (.dict [(p!"title", (.str p!"Gemini Market Data Websocket API")), (p!"version", (.str p!"1.0.0")), (p!"description", (.str p!"Market data is a public API that streams all the market data on a given\nsymbol.\n\n\nYou can quickly play with the API using\n[websocat](https://github.com/vi/websocat#installation) like this:\n\n```bash\n\nwebsocat wss://api.gemini.com/v1/marketdata/btcusd?heartbeat=true -S\n\n```")), (p!"contact", (.dict [(p!"name", (.str p!"Gemini")), (p!"url", (.str p!"https://www.gemini.com/"))])), (p!"externalDocs", (.dict [(p!"url", (.str p!"https://docs.sandbox.gemini.com/websocket-api/#market-data"))]))])), (p!"servers", (.dict [(p!"public", (.dict [(p!"host", (.str p!"api.gemini.com")), (p!"protocol", (.str p!"wss"))]))])), (p!"channels", (.dict [(p!"marketDataV1", (.dict [(p!"address", (.str p!"/v1/marketdata/{symbol}")), (p!"messages", (.dict [(p!"marketData", (.dict [(p!"$ref", (.str p!"#/components/messages/marketData"))]))])), (p!"parameters", (.dict [(p!"symbol", (.dict [(p!"enum", (.list [(.str p!"btcusd"), (.str p!"ethbtc"), (.str p!"ethusd"), (.str p!"zecusd"), (.str p!"zecbtc"), (.str p!"zeceth"), (.str p!"zecbch"), (.str p!"zecltc"), (.str p!"bchusd"), (.str p!"bchbtc"), (.str p!"bcheth"), (.str p!"ltcusd"), (.str p!"ltcbtc"), (.str p!"ltceth"), (.str p!"ltcbch"), (.str p!"batusd"), (.str p!"daiusd"), (.str p!"linkusd"), (.str p!"oxtusd"), (.str p!"batbtc"), (.str p!"linkbtc"), (.str p!"oxtbtc"), (.str p!"bateth"), (.str p!"linketh"), (.str p!"oxteth"), (.str p!"ampusd"), (.str p!"compusd"), (.str p!"paxgusd"), (.str p!"mkrusd"), (.str p!"zrxusd"), (.str p!"kncusd"), (.str p!"manausd"), (.str p!"storjusd"), (.str p!"snxusd"), (.str p!"crvusd"), (.str p!"balusd"), (.str p!"uniusd"), (.str p!"renusd"), (.str p!"umausd"), (.str p!"yfiusd"), (.str p!"btcdai"), (.str p!"ethdai"), (.str p!"aaveusd"), (.str p!"filusd"), (.str p!"btceur"), (.str p!"btcgbp"), (.str p!"etheur"), (.str p!"ethgbp"), (.str p!"btcsgd"), (.str p!"ethsgd"), (.str p!"sklusd"), (.str p!"grtusd"), (.str p!"bntusd"), (.str p!"1inchusd"), (.str p!"enjusd"), (.str p!"lrcusd"), (.str p!"sandusd"), (.str p!"cubeusd"), (.str p!"lptusd"), (.str p!"bondusd"), (.str p!"maticusd"), (.str p!"injusd"), (.str p!"sushiusd")])), (p!"description", (.str p!"Symbols are formatted as CCY1CCY2 where prices are in CCY2 and\nquantities are in CCY1. To read more click\n[here](https://docs.sandbox.gemini.com/websocket-api/#symbols-and-minimums)."))]))])), (p!"bindings", (.dict [(p!"ws", (.dict [(p!"bindingVersion", (.str p!"0.1.0")), (p!"query", (.dict [(p!"type", (.str p!"object")), (p!"description", (.str p!"The semantics of entry type filtering is:\n\n\nIf any entry type is specified as true or false, all of them must be\nexplicitly flagged true to show up in the response\n\nIf no entry types filtering parameters are included in the url, then\nall entry types will appear in the response\n\n\nNOTE: top_of_book has no meaning and initial book events are empty\nwhen only trades is specified")), (p!"properties", (.dict [(p!"heartbeat", (.dict [(p!"type", (.str p!"boolean")), (p!"default", (.bool false)), (p!"description", (.str p!"Optionally add this parameter and set to true to receive a\nheartbeat every 5 seconds"))])), (p!"top_of_book", (.dict [(p!"type", (.str p!"boolean")), (p!"default", (.bool false)), (p!"description", (.str p!"If absent or false, receive full order book depth; if present\nand true, receive top of book only. Only applies to bids and\noffers."))])), (p!"bids", (.dict [(p!"type", (.str p!"boolean")), (p!"default", (.bool true)), (p!"description", (.str p!"Include bids in change events"))])), (p!"offers", (.dict [(p!"type", (.str p!"boolean")), (p!"default", (.bool true)), (p!"description", (.str p!"Include asks in change events"))])), (p!"trades", (.dict [(p!"type", (.str p!"boolean")), (p!"default", (.bool true)), (p!"description", (.str p!"Include trade events"))])), (p!"auctions", (.dict [(p!"type", (.str p!"boolean")), (p!"default", (.bool true)), (p!"description", (.str p!"Include auction events"))]))]))]))]))]))]))])), (p!"operations", (.dict [(p!"sendMarketData", (.dict [(p!"action", (.str p!"send")), (p!"channel", (.dict [(p!"$ref", (.str p!"#/channels/marketDataV1"))])), (p!"summary", (.str p!"Receive market updates on a given symbol")), (p!"messages", (.list [(.dict [(p!"$ref", (.str p!"#/channels/marketDataV1/messages/marketData"))])]))]))])), (p!"components", (.dict [(p!"messages", (.dict [(p!"marketData", (.dict [(p!"summary", (.str p!"Message with marked data information.")), (p!"description", (.str p!"The initial response message will show the existing state of the order\nbook. Subsequent messages will show all executed trades, as well as all\nother changes to the order book from orders placed or canceled.")), (p!"payload", (.dict [(p!"$ref", (.str p!"#/components/schemas/market"))])), (p!"examples", (.list [(.dict [(p!"name", (.str p!"updateMessage")), (p!"summary", (.str p!"Example of an update message that contains a change in price information.")), (p!"payload", (.dict [(p!"type", (.str p!"update")), (p!"eventId", (.int (36902233362))), (p!"timestamp", (.str p!"1619769673")), (p!"timestampms", (.str p!"1619769673527")), (p!"socket_sequence", (.int (661))), (p!"events", (.list [(.dict [(p!"type", (.str p!"change")), (p!"side", (.str p!"bid")), (p!"price", (.str p!"54350.40")), (p!"remaining", (.str p!"0.002")), (p!"delta", (.str p!"0.002")), (p!"reason", (.str p!"place"))])]))]))]), (.dict [(p!"name", (.str p!"heartbeatMessage")), (p!"summary", (.str p!"Example of additional heartbeat message when you enable them.")), (p!"payload", (.dict [(p!"type", (.str p!"heartbeat")), (p!"socket_sequence", (.int (1656)))]))])]))]))])), (p!"schemas", (.dict [(p!"market", (.dict [(p!"type", (.str p!"object")), (p!"oneOf", (.list [(.dict [(p!"$ref", (.str p!"#/components/schemas/heartbeat"))]), (.dict [(p!"$ref", (.str p!"#/components/schemas/update"))])]))])), (p!"heartbeat", (.dict [(p!"allOf", (.list [(.dict [(p!"properties", (.dict [(p!"type", (.dict [(p!"type", (.str p!"string")), (p!"const", (.str p!"heartbeat"))]))])), (p!"required", (.list [(.str p!"type")]))]), (.dict [(p!"$ref", (.str p!"#/components/schemas/default"))])]))])), (p!"update", (.dict [(p!"allOf", (.list [(.dict [(p!"properties", (.dict [(p!"type", (.dict [(p!"type", (.str p!"string")), (p!"const", (.str p!"update"))])), (p!"eventId", (.dict [(p!"type", (.str p!"integer")), (p!"description", (.str p!"A monotonically increasing sequence number indicating when this\nchange occurred. These numbers are persistent and consistent\nbetween market data connections."))])), (p!"events", (.dict [(p!"$ref", (.str p!"#/components/schemas/events"))])), (p!"timestamp", (.dict [(p!"type", (.str p!"string")), (p!"format", (.str p!"date-time")), (p!"description", (.str p!"The timestamp in seconds for this group of events (included for\ncompatibility reasons). We recommend using the timestampms field\ninstead."))])), (p!"timestampms", (.dict [(p!"type", (.str p!"string")), (p!"format", (.str p!"time")), (p!"description", (.str p!"The timestamp in milliseconds for this group of events."))]))])), (p!"required", (.list [(.str p!"type"), (.str p!"eventId"), (.str p!"events"), (.str p!"timestamp"), (.str p!"timestampms")]))]), (.dict [(p!"$ref", (.str p!"#/components/schemas/default"))])]))])), (p!"default", (.dict [(p!"type", (.str p!"object")), (p!"description", (.str p!"This object is always part of the payload. In case of type=heartbeat,\nthese are the only fields.")), (p!"required", (.list [(.str p!"type"), (.str p!"socket_sequence")])), (p!"properties", (.dict [(p!"socket_sequence", (.dict [(p!"type", (.str p!"integer")), (p!"description", (.str p!"zero-indexed monotonic increasing sequence number attached to each\nmessage sent - if there is a gap in this sequence, you have missed a\nmessage. If you choose to enable heartbeats, then heartbeat and\nupdate messages will share a single increasing sequence. See\n[Sequence\nNumbers](https://docs.sandbox.gemini.com/websocket-api/#sequence-numbers)\nfor more information."))]))]))])), (p!"events", (.dict [(p!"type", (.str p!"array")), (p!"description", (.str p!"Either a change to the order book, or the indication that a trade has\noccurred.")), (p!"items", (.dict [(p!"type", (.str p!"object")), (p!"additionalProperties", (.bool false)), (p!"properties", (.dict [(p!"type", (.dict [(p!"type", (.str p!"string")), (p!"enum", (.list [(.str p!"trade"), (.str p!"change"), (.str p!"auction, block_trade")]))])), (p!"price", (.dict [(p!"type", (.str p!"number")), (p!"multipleOf", (.int (1))), (p!"description", (.str p!"The price of this order book entry."))])), (p!"side", (.dict [(p!"type", (.str p!"string")), (p!"enum", (.list [(.str p!"bid"), (.str p!"side")]))])), (p!"reason", (.dict [(p!"type", (.str p!"string")), (p!"enum", (.list [(.str p!"place"), (.str p!"trade"), (.str p!"cancel"), (.str p!"initial")])), (p!"description", (.str p!"Indicates why the change has occurred. initial is for the initial\nresponse message, which will show the entire existing state of the\norder book."))])), (p!"remaining", (.dict [(p!"type", (.str p!"number")), (p!"multipleOf", (.int (1))), (p!"description", (.str p!"The quantity remaining at that price level after this change\noccurred. May be zero if all orders at this price level have been\nfilled or canceled."))])), (p!"delta", (.dict [(p!"type", (.str p!"number")), (p!"multipleOf", (.int (1))), (p!"description", (.str p!"The quantity changed. May be negative, if an order is filled or\ncanceled. For initial messages, delta will equal remaining."))]))]))]))]))]))]))])) : Option Unit).isSome = true := by decide +kernel

/-- `yaml_specs/valid/multi_files/backend/asyncapi.yaml`, tests/test_base_validation.py:27 -/
example : (do
  discard (load .AsyncAPI3 (.dict [(p!"asyncapi", (.str p!"3.0.0")), (p!"info", (.dict [(p!"title", (.str p!"Website Backend")), (p!"version", (.str p!"1.0.0"))])), (p!"servers", (.dict [(p!"websiteWebSocketServer", (.dict [(p!"$ref", (.str p!"../common/servers.yaml#/websiteWebSocketServer"))])), (p!"mosquitto", (.dict [(p!"host", (.str p!"test.mosquitto.org")), (p!"protocol", (.str p!"mqtt")), (p!"tags", (.list [(.dict [(p!"name", (.str p!"env:production")), (p!"description", (.str p!"This environment is meant for production use case"))]), (.dict [(p!"name", (.str p!"kind:remote")), (p!"description", (.str p!"This server is a remote server. Not exposed by the application"))]), (.dict [(p!"name", (.str p!"visibility:public")), (p!"description", (.str p!"This resource is public and available to everyone"))])])), (p!"bindings", (.dict [(p!"mqtt", (.dict [(p!"clientId", (.str p!"websocketServer"))]))]))]))])), (p!"channels", (.dict [(p!"notifyAllCommentLiked", (.dict [(p!"address", (.str p!"comment/liked")), (p!"messages", (.dict [(p!"commentLiked", (.dict [(p!"$ref", (.str p!"../common/messages.yaml#/commentLiked"))]))])), (p!"description", (.str p!"Notify all the services that a comment has been liked.")), (p!"servers", (.list [(.dict [(p!"$ref", (.str p!"#/servers/mosquitto"))])]))])), (p!"newLikeComment", (.dict [(p!"address", (.str p!"like/comment")), (p!"messages", (.dict [(p!"likeComment", (.dict [(p!"$ref", (.str p!"../common/messages.yaml#/likeComment"))]))])), (p!"description", (.str p!"When a comment like is received from the frontend.")), (p!"servers", (.list [(.dict [(p!"$ref", (.str p!"#/servers/websiteWebSocketServer"))])]))])), (p!"commentsCountChange", (.dict [(p!"address", (.str p!"comment/{commentId}/changed")), (p!"messages", (.dict [(p!"commentChanged", (.dict [(p!"$ref", (.str p!"../common/messages.yaml#/commentChanged"))]))])), (p!"description", (.str p!"When an event from the broker arrives telling us to update the comment likes count on the frontend.")), (p!"servers", (.list [(.dict [(p!"$ref", (.str p!"#/servers/mosquitto"))])])), (p!"parameters", (.dict [(p!"commentId", (.dict [(p!"$ref", (.str p!"../common/parameters.yaml#/commentId"))]))]))])), (p!"updateCommentsCount", (.dict [(p!"address", (.str p!"update/comment/likes")), (p!"messages", (.dict [(p!"updateCommentLikes", (.dict [(p!"$ref", (.str p!"../common/messages.yaml#/updateCommentLikes"))]))])), (p!"description", (.str p!"Update comment likes count in the frontend.")), (p!"servers", (.list [(.dict [(p!"$ref", (.str p!"#/servers/websiteWebSocketServer"))])]))]))])), (p!"operations", (.dict [(p!"sendCommentLiked", (.dict [(p!"action", (.str p!"send")), (p!"channel", (.dict [(p!"$ref", (.str p!"#/channels/notifyAllCommentLiked"))])), (p!"messages", (.list [(.dict [(p!"$ref", (.str p!"#/channels/notifyAllCommentLiked/messages/commentLiked"))])]))])), (p!"receiveCommentLike", (.dict [(p!"action", (.str p!"receive")), (p!"channel", (.dict [(p!"$ref", (.str p!"#/channels/newLikeComment"))])), (p!"messages", (.list [(.dict [(p!"$ref", (.str p!"#/channels/newLikeComment/messages/likeComment"))])]))])), (p!"receiveCommentChange", (.dict [(p!"action", (.str p!"receive")), (p!"channel", (.dict [(p!"$ref", (.str p!"#/channels/commentsCountChange"))])), (p!"messages", (.list [(.dict [(p!"$ref", (.str p!"#/channels/commentsCountChange/messages/commentChanged"))])]))])), (p!"sendCommentLikeUpdate", (.dict [(p!"action", (.str p!"send")), (p!"channel", (.dict [(p!"$ref", (.str p!"#/channels/updateCommentsCount"))])), (p!"messages", (.list [(.dict [(p!"$ref", (.str p!"#/channels/updateCommentsCount/messages/updateCommentLikes"))])]))]))]))])) : Option Unit).isSome = true := by decide +kernel

/-- `yaml_specs/valid/multi_files/comments-service/asyncapi.yaml`, tests/test_base_validation.py:27 -/
example : (do
  discard (load .AsyncAPI3 (.dict [(p!"asyncapi", (.str p!"3.0.0")), (p!"info", (.dict [(p!"title", (.str p!"Comments Service")), (p!"version", (.str p!"1.0.0")), (p!"description", (.str p!"This service is in charge of processing all the events related to comments."))])), (p!"servers", (.dict [(p!"mosquitto", (.dict [(p!"host", (.str p!"test.mosquitto.org")), (p!"protocol", (.str p!"mqtt")), (p!"tags", (.list [(.dict [(p!"name", (.str p!"env:production")), (p!"description", (.str p!"This environment is meant for production use case"))]), (.dict [(p!"name", (.str p!"kind:remote")), (p!"description", (.str p!"This server is a remote server. Not exposed by the application"))]), (.dict [(p!"name", (.str p!"visibility:public")), (p!"description", (.str p!"This resource is public and available to everyone"))])])), (p!"bindings", (.dict [(p!"mqtt", (.dict [(p!"clientId", (.str p!"comment-service"))]))]))]))])), (p!"channels", (.dict [(p!"commentLiked", (.dict [(p!"address", (.str p!"comment/liked")), (p!"messages", (.dict [(p!"commentLiked", (.dict [(p!"$ref", (.str p!"../common/messages.yaml#/commentLiked"))]))])), (p!"description", (.str p!"Updates the likes count in the database and sends the new count to the broker."))])), (p!"commentCountChange", (.dict [(p!"address", (.str p!"comment/{commentId}/changed")), (p!"messages", (.dict [(p!"commentChanged", (.dict [(p!"$ref", (.str p!"../common/messages.yaml#/commentChanged"))]))])), (p!"description", (.str p!"Sends the new count to the broker after it has been updated in the database.")), (p!"parameters", (.dict [(p!"commentId", (.dict [(p!"$ref", (.str p!"../common/parameters.yaml#/commentId"))]))]))]))])), (p!"operations", (.dict [(p!"receiveCommentLiked", (.dict [(p!"action", (.str p!"receive")), (p!"channel", (.dict [(p!"$ref", (.str p!"#/channels/commentLiked"))])), (p!"messages", (.list [(.dict [(p!"$ref", (.str p!"#/channels/commentLiked/messages/commentLiked"))])]))])), (p!"sendCommentChange", (.dict [(p!"action", (.str p!"send")), (p!"channel", (.dict [(p!"$ref", (.str p!"#/channels/commentCountChange"))])), (p!"messages", (.list [(.dict [(p!"$ref", (.str p!"#/channels/commentCountChange/messages/commentChanged"))])]))]))]))])) : Option Unit).isSome = true := by decide +kernel

/-- `yaml_specs/valid/multi_files/frontend/asyncapi.yaml`, tests/test_base_validation.py:27 -/
example : (do
  discard (load .AsyncAPI3 (.dict [(p!"asyncapi", (.str p!"3.0.0")), (p!"info", (.dict [(p!"title", (.str p!"Website WebSocket Client")), (p!"version", (.str p!"1.0.0"))])), (p!"servers", (.dict [(p!"websiteWebSocketServer", (.dict [(p!"$ref", (.str p!"../common/servers.yaml#/websiteWebSocketServer"))]))])), (p!"channels", (.dict [(p!"likeComment", (.dict [(p!"address", (.str p!"like/comment")), (p!"messages", (.dict [(p!"likeComment", (.dict [(p!"$ref", (.str p!"../common/messages.yaml#/likeComment"))]))])), (p!"description", (.str p!"Notify the backend that a comment has been liked."))])), (p!"updateCommentLike", (.dict [(p!"address", (.str p!"update/comment/likes")), (p!"messages", (.dict [(p!"updateCommentLikes", (.dict [(p!"$ref", (.str p!"../common/messages.yaml#/updateCommentLikes"))]))])), (p!"description", (.str p!"Update the UI when the comment likes count is updated."))]))])), (p!"operations", (.dict [(p!"sendLikeComment", (.dict [(p!"action", (.str p!"send")), (p!"channel", (.dict [(p!"$ref", (.str p!"#/channels/likeComment"))])), (p!"messages", (.list [(.dict [(p!"$ref", (.str p!"#/channels/likeComment/messages/likeComment"))])]))])), (p!"receiveUpdateCommentLiked", (.dict [(p!"action", (.str p!"receive")), (p!"channel", (.dict [(p!"$ref", (.str p!"#/channels/updateCommentLike"))])), (p!"messages", (.list [(.dict [(p!"$ref", (.str p!"#/channels/updateCommentLike/messages/updateCommentLikes"))])]))]))]))])) : Option Unit).isSome = true := by decide +kernel

/-- `yaml_specs/valid/multi_files/notification-service/asyncapi.yaml`, tests/test_base_validation.py:27 -/
example : (do
  discard (load .AsyncAPI3 (.dict [(p!"asyncapi", (.str p!"3.0.0")), (p!"info", (.dict [(p!"title", (.str p!"Notifications Service")), (p!"version", (.str p!"1.0.0"))])), (p!"servers", (.dict [(p!"mosquitto", (.dict [(p!"host", (.str p!"test.mosquitto.org")), (p!"protocol", (.str p!"mqtt")), (p!"tags", (.list [(.dict [(p!"name", (.str p!"env:production")), (p!"description", (.str p!"This environment is meant for production use case"))]), (.dict [(p!"name", (.str p!"kind:remote")), (p!"description", (.str p!"This server is a remote server. Not exposed by the application"))]), (.dict [(p!"name", (.str p!"visibility:public")), (p!"description", (.str p!"This resource is public and available to everyone"))])])), (p!"bindings", (.dict [(p!"mqtt", (.dict [(p!"clientId", (.str p!"notification-service"))]))]))]))])), (p!"channels", (.dict [(p!"commentLiked", (.dict [(p!"address", (.str p!"comment/liked")), (p!"messages", (.dict [(p!"commentLiked", (.dict [(p!"$ref", (.str p!"../common/messages.yaml#/commentLiked"))]))])), (p!"description", (.str p!"When a \"comment has been liked\" message is received, it sends an SMS or push notification to the author."))]))])), (p!"operations", (.dict [(p!"receiveCommentLiked", (.dict [(p!"action", (.str p!"receive")), (p!"channel", (.dict [(p!"$ref", (.str p!"#/channels/commentLiked"))])), (p!"messages", (.list [(.dict [(p!"$ref", (.str p!"#/channels/commentLiked/messages/commentLiked"))])]))]))]))])) : Option Unit).isSome = true := by decide +kernel

/-- `yaml_specs/valid/multi_files/public-api/asyncapi.yaml`, tests/test_base_validation.py:27 -/
example : (do
  discard (load .AsyncAPI3 (.dict [(p!"asyncapi", (.str p!"3.0.0")), (p!"info", (.dict [(p!"title", (.str p!"Public API")), (p!"version", (.str p!"1.0.0")), (p!"description", (.str p!"Public API for others to interact with the system"))])), (p!"servers", (.dict [(p!"mosquitto", (.dict [(p!"host", (.str p!"test.mosquitto.org")), (p!"protocol", (.str p!"mqtt")), (p!"tags", (.list [(.dict [(p!"name", (.str p!"env:production")), (p!"description", (.str p!"This environment is meant for production use case"))]), (.dict [(p!"name", (.str p!"kind:remote")), (p!"description", (.str p!"This server is a remote server. Not exposed by the application"))]), (.dict [(p!"name", (.str p!"visibility:public")), (p!"description", (.str p!"This resource is public and available to everyone"))])])), (p!"bindings", (.dict [(p!"mqtt", (.dict [(p!"clientId", (.str p!"public-api"))]))]))]))])), (p!"channels", (.dict [(p!"commentLiked", (.dict [(p!"address", (.str p!"comment/liked")), (p!"messages", (.dict [(p!"commentLiked", (.dict [(p!"$ref", (.str p!"../common/messages.yaml#/commentLiked"))]))])), (p!"description", (.str p!"Others are publishing to you, whenever a comment is liked, for you to do react to such an event."))]))])), (p!"operations", (.dict [(p!"receiveCommentLiked", (.dict [(p!"action", (.str p!"receive")), (p!"channel", (.dict [(p!"$ref", (.str p!"#/channels/commentLiked"))])), (p!"messages", (.list [(.dict [(p!"$ref", (.str p!"#/channels/commentLiked/messages/commentLiked"))])]))]))]))])) : Option Unit).isSome = true := by decide +kernel

/-- `yaml_specs/valid/single_file/anyof-asyncapi.yml`, tests/test_base_validation.py:27 -/
example : (do
  discard (load .AsyncAPI3 (.dict [(p!"asyncapi", (.str p!"3.0.0")), (p!"info", (.dict [(p!"title", (.str p!"AnyOf example")), (p!"version", (.str p!"1.0.0"))])), (p!"channels", (.dict [(p!"test", (.dict [(p!"address", (.str p!"test")), (p!"messages", (.dict [(p!"testMessages", (.dict [(p!"$ref", (.str p!"#/components/messages/testMessages"))]))]))]))])), (p!"operations", (.dict [(p!"test", (.dict [(p!"action", (.str p!"receive")), (p!"channel", (.dict [(p!"$ref", (.str p!"#/channels/test"))])), (p!"messages", (.list [(.dict [(p!"$ref", (.str p!"#/channels/test/messages/testMessages"))])]))]))])), (p!"components", (.dict [(p!"messages", (.dict [(p!"testMessages", (.dict [(p!"payload", (.dict [(p!"anyOf", (.list [(.dict [(p!"$ref", (.str p!"#/components/schemas/objectWithKey"))]), (.dict [(p!"$ref", (.str p!"#/components/schemas/objectWithKey2"))])]))]))]))])), (p!"schemas", (.dict [(p!"objectWithKey", (.dict [(p!"type", (.str p!"object")), (p!"properties", (.dict [(p!"key", (.dict [(p!"type", (.str p!"string")), (p!"additionalProperties", (.bool false))]))]))])), (p!"objectWithKey2", (.dict [(p!"type", (.str p!"object")), (p!"properties", (.dict [(p!"key2", (.dict [(p!"type", (.str p!"string"))]))]))]))]))]))])) : Option Unit).isSome = true := by decide +kernel

/-- `yaml_specs/valid/single_file/application-headers-asyncapi.yml`, tests/test_base_validation.py:27 -/
example : (do
  discard (load .AsyncAPI3 (.dict [(p!"asyncapi", (.str p!"3.0.0")), (p!"info", (.dict [(p!"title", (.str p!"Application Headers example")), (p!"version", (.str p!"1.0.0")), (p!"description", (.str p!"A cut of the Streetlights API to test application header changes supporting")), (p!"license", (.dict [(p!"name", (.str p!"Apache 2.0")), (p!"url", (.str p!"https://www.apache.org/licenses/LICENSE-2.0"))]))])), (p!"defaultContentType", (.str p!"application/json")), (p!"servers", (.dict [(p!"production", (.dict [(p!"host", (.str p!"test.mosquitto.org:{port}")), (p!"protocol", (.str p!"mqtt")), (p!"description", (.str p!"Test broker")), (p!"variables", (.dict [(p!"port", (.dict [(p!"description", (.str p!"Secure connection (TLS) is available through port 8883.")), (p!"default", (.str p!"1883")), (p!"enum", (.list [(.str p!"1883"), (.str p!"8883")]))]))]))]))])), (p!"channels", (.dict [(p!"lightingMeasured", (.dict [(p!"address", (.str p!"smartylighting/streetlights/1/0/event/{streetlightId}/lighting/measured")), (p!"messages", (.dict [(p!"lightMeasured", (.dict [(p!"$ref", (.str p!"#/components/messages/lightMeasured"))]))])), (p!"parameters", (.dict [(p!"streetlightId", (.dict [(p!"$ref", (.str p!"#/components/parameters/streetlightId"))]))]))]))])), (p!"operations", (.dict [(p!"receiveLightMeasurement", (.dict [(p!"action", (.str p!"receive")), (p!"channel", (.dict [(p!"$ref", (.str p!"#/channels/lightingMeasured"))])), (p!"summary", (.str p!"Inform about environmental lighting conditions of a particular streetlight.")), (p!"messages", (.list [(.dict [(p!"$ref", (.str p!"#/channels/lightingMeasured/messages/lightMeasured"))])]))]))])), (p!"components", (.dict [(p!"messages", (.dict [(p!"lightMeasured", (.dict [(p!"name", (.str p!"lightMeasured")), (p!"title", (.str p!"Light measured")), (p!"summary", (.str p!"Inform about environmental lighting conditions of a particular streetlight.")), (p!"correlationId", (.dict [(p!"location", (.str p!"$message.header#/MQMD/CorrelId"))])), (p!"contentType", (.str p!"application/json")), (p!"headers", (.dict [(p!"type", (.str p!"object")), (p!"properties", (.dict [(p!"MQMD", (.dict [(p!"type", (.str p!"object")), (p!"properties", (.dict [(p!"CorrelId", (.dict [(p!"type", (.str p!"string")), (p!"minLength", (.int (24))), (p!"maxLength", (.int (24))), (p!"format", (.str p!"binary"))]))]))])), (p!"applicationInstanceId", (.dict [(p!"$ref", (.str p!"#/components/schemas/applicationInstanceId"))]))]))])), (p!"payload", (.dict [(p!"$ref", (.str p!"#/components/schemas/lightMeasuredPayload"))]))]))])), (p!"schemas", (.dict [(p!"lightMeasuredPayload", (.dict [(p!"type", (.str p!"object")), (p!"properties", (.dict [(p!"lumens", (.dict [(p!"type", (.str p!"integer")), (p!"minimum", (.int (0))), (p!"description", (.str p!"Light intensity measured in lumens."))])), (p!"sentAt", (.dict [(p!"$ref", (.str p!"#/components/schemas/sentAt"))]))]))])), (p!"sentAt", (.dict [(p!"type", (.str p!"string")), (p!"format", (.str p!"date-time")), (p!"description", (.str p!"Date and time when the message was sent."))])), (p!"applicationInstanceId", (.dict [(p!"description", (.str p!"Unique identifier for a given instance of the publishing application")), (p!"type", (.str p!"string"))]))])), (p!"parameters", (.dict [(p!"streetlightId", (.dict [(p!"description", (.str p!"The ID of the streetlight."))]))]))]))])) : Option Unit).isSome = true := by decide +kernel

/-- `yaml_specs/valid/single_file/correlation-id-asyncapi.yml`, tests/test_base_validation.py:27 -/
example : (do
  discard (load .AsyncAPI3 (.dict [(p!"asyncapi", (.str p!"3.0.0")), (p!"info", (.dict [(p!"title", (.str p!"Correlation ID Example")), (p!"version", (.str p!"1.0.0")), (p!"description", (.str p!"A cut of the Streetlights API to test Correlation ID")), (p!"license", (.dict [(p!"name", (.str p!"Apache 2.0")), (p!"url", (.str p!"https://www.apache.org/licenses/LICENSE-2.0"))]))])), (p!"defaultContentType", (.str p!"application/json")), (p!"servers", (.dict [(p!"production", (.dict [(p!"host", (.str p!"test.mosquitto.org:{port}")), (p!"protocol", (.str p!"mqtt")), (p!"description", (.str p!"Test broker")), (p!"variables", (.dict [(p!"port", (.dict [(p!"description", (.str p!"Secure connection (TLS) is available through port 8883.")), (p!"default", (.str p!"1883")), (p!"enum", (.list [(.str p!"1883"), (.str p!"8883")]))]))])), (p!"security", (.list [(.dict [(p!"$ref", (.str p!"#/components/securitySchemes/apiKey"))]), (.dict [(p!"type", (.str p!"oauth2")), (p!"description", (.str p!"Flows to support OAuth 2.0")), (p!"flows", (.dict [(p!"implicit", (.dict [(p!"authorizationUrl", (.str p!"https://authserver.example/auth")), (p!"availableScopes", (.dict [(p!"streetlights:on", (.str p!"Ability to switch lights on")), (p!"streetlights:off", (.str p!"Ability to switch lights off")), (p!"streetlights:dim", (.str p!"Ability to dim the lights"))]))])), (p!"password", (.dict [(p!"tokenUrl", (.str p!"https://authserver.example/token")), (p!"availableScopes", (.dict [(p!"streetlights:on", (.str p!"Ability to switch lights on")), (p!"streetlights:off", (.str p!"Ability to switch lights off")), (p!"streetlights:dim", (.str p!"Ability to dim the lights"))]))])), (p!"clientCredentials", (.dict [(p!"tokenUrl", (.str p!"https://authserver.example/token")), (p!"availableScopes", (.dict [(p!"streetlights:on", (.str p!"Ability to switch lights on")), (p!"streetlights:off", (.str p!"Ability to switch lights off")), (p!"streetlights:dim", (.str p!"Ability to dim the lights"))]))])), (p!"authorizationCode", (.dict [(p!"authorizationUrl", (.str p!"https://authserver.example/auth")), (p!"tokenUrl", (.str p!"https://authserver.example/token")), (p!"refreshUrl", (.str p!"https://authserver.example/refresh")), (p!"availableScopes", (.dict [(p!"streetlights:on", (.str p!"Ability to switch lights on")), (p!"streetlights:off", (.str p!"Ability to switch lights off")), (p!"streetlights:dim", (.str p!"Ability to dim the lights"))]))]))])), (p!"scopes", (.list [(.str p!"streetlights:on"), (.str p!"streetlights:off"), (.str p!"streetlights:dim")]))]), (.dict [(p!"$ref", (.str p!"#/components/securitySchemes/openIdConnectWellKnown"))])]))]))])), (p!"channels", (.dict [(p!"lightingMeasured", (.dict [(p!"address", (.str p!"smartylighting/streetlights/1/0/event/{streetlightId}/lighting/measured")), (p!"messages", (.dict [(p!"lightMeasured", (.dict [(p!"$ref", (.str p!"#/components/messages/lightMeasured"))]))])), (p!"parameters", (.dict [(p!"streetlightId", (.dict [(p!"$ref", (.str p!"#/components/parameters/streetlightId"))]))]))])), (p!"lightsDim", (.dict [(p!"address", (.str p!"smartylighting/streetlights/1/0/action/{streetlightId}/dim")), (p!"messages", (.dict [(p!"dimLight", (.dict [(p!"$ref", (.str p!"#/components/messages/dimLight"))]))])), (p!"parameters", (.dict [(p!"streetlightId", (.dict [(p!"$ref", (.str p!"#/components/parameters/streetlightId"))]))]))]))])), (p!"operations", (.dict [(p!"receiveLightMeasurement", (.dict [(p!"action", (.str p!"receive")), (p!"channel", (.dict [(p!"$ref", (.str p!"#/channels/lightingMeasured"))])), (p!"summary", (.str p!"Inform about environmental lighting conditions of a particular streetlight.")), (p!"messages", (.list [(.dict [(p!"$ref", (.str p!"#/channels/lightingMeasured/messages/lightMeasured"))])]))])), (p!"dimLight", (.dict [(p!"action", (.str p!"send")), (p!"channel", (.dict [(p!"$ref", (.str p!"#/channels/lightsDim"))])), (p!"messages", (.list [(.dict [(p!"$ref", (.str p!"#/channels/lightsDim/messages/dimLight"))])]))]))])), (p!"components", (.dict [(p!"messages", (.dict [(p!"lightMeasured", (.dict [(p!"name", (.str p!"lightMeasured")), (p!"title", (.str p!"Light measured")), (p!"summary", (.str p!"Inform about environmental lighting conditions of a particular streetlight.")), (p!"correlationId", (.dict [(p!"location", (.str p!"$message.header#/MQMD/CorrelId"))])), (p!"contentType", (.str p!"application/json")), (p!"payload", (.dict [(p!"$ref", (.str p!"#/components/schemas/lightMeasuredPayload"))]))])), (p!"dimLight", (.dict [(p!"name", (.str p!"dimLight")), (p!"title", (.str p!"Dim light")), (p!"summary", (.str p!"Command a particular streetlight to dim the lights.")), (p!"correlationId", (.dict [(p!"$ref", (.str p!"#/components/correlationIds/sentAtCorrelator"))])), (p!"payload", (.dict [(p!"$ref", (.str p!"#/components/schemas/dimLightPayload"))]))]))])), (p!"schemas", (.dict [(p!"lightMeasuredPayload", (.dict [(p!"type", (.str p!"object")), (p!"properties", (.dict [(p!"lumens", (.dict [(p!"type", (.str p!"integer")), (p!"minimum", (.int (0))), (p!"description", (.str p!"Light intensity measured in lumens."))])), (p!"sentAt", (.dict [(p!"$ref", (.str p!"#/components/schemas/sentAt"))]))]))])), (p!"dimLightPayload", (.dict [(p!"type", (.str p!"object")), (p!"properties", (.dict [(p!"percentage", (.dict [(p!"type", (.str p!"integer")), (p!"description", (.str p!"Percentage to which the light should be dimmed to.")), (p!"minimum", (.int (0))), (p!"maximum", (.int (100)))])), (p!"sentAt", (.dict [(p!"$ref", (.str p!"#/components/schemas/sentAt"))]))]))])), (p!"sentAt", (.dict [(p!"type", (.str p!"string")), (p!"format", (.str p!"date-time")), (p!"description", (.str p!"Date and time when the message was sent."))]))])), (p!"parameters", (.dict [(p!"streetlightId", (.dict [(p!"description", (.str p!"The ID of the streetlight."))]))])), (p!"correlationIds", (.dict [(p!"sentAtCorrelator", (.dict [(p!"description", (.str p!"Data from message payload used as correlation ID")), (p!"location", (.str p!"$message.payload#/sentAt"))]))])), (p!"securitySchemes", (.dict [(p!"apiKey", (.dict [(p!"type", (.str p!"apiKey")), (p!"in", (.str p!"user")), (p!"description", (.str p!"Provide your API key as the user and leave the password empty."))])), (p!"supportedOauthFlows", (.dict [(p!"type", (.str p!"oauth2")), (p!"description", (.str p!"Flows to support OAuth 2.0")), (p!"flows", (.dict [(p!"implicit", (.dict [(p!"authorizationUrl", (.str p!"https://authserver.example/auth")), (p!"availableScopes", (.dict [(p!"streetlights:on", (.str p!"Ability to switch lights on")), (p!"streetlights:off", (.str p!"Ability to switch lights off")), (p!"streetlights:dim", (.str p!"Ability to dim the lights"))]))])), (p!"password", (.dict [(p!"tokenUrl", (.str p!"https://authserver.example/token")), (p!"availableScopes", (.dict [(p!"streetlights:on", (.str p!"Ability to switch lights on")), (p!"streetlights:off", (.str p!"Ability to switch lights off")), (p!"streetlights:dim", (.str p!"Ability to dim the lights"))]))])), (p!"clientCredentials", (.dict [(p!"tokenUrl", (.str p!"https://authserver.example/token")), (p!"availableScopes", (.dict [(p!"streetlights:on", (.str p!"Ability to switch lights on")), (p!"streetlights:off", (.str p!"Ability to switch lights off")), (p!"streetlights:dim", (.str p!"Ability to dim the lights"))]))])), (p!"authorizationCode", (.dict [(p!"authorizationUrl", (.str p!"https://authserver.example/auth")), (p!"tokenUrl", (.str p!"https://authserver.example/token")), (p!"refreshUrl", (.str p!"https://authserver.example/refresh")), (p!"availableScopes", (.dict [(p!"streetlights:on", (.str p!"Ability to switch lights on")), (p!"streetlights:off", (.str p!"Ability to switch lights off")), (p!"streetlights:dim", (.str p!"Ability to dim the lights"))]))]))]))])), (p!"openIdConnectWellKnown", (.dict [(p!"type", (.str p!"openIdConnect")), (p!"openIdConnectUrl", (.str p!"https://authserver.example/.well-known"))]))]))]))])) : Option Unit).isSome = true := by decide +kernel

/-- `yaml_specs/valid/single_file/gitter-streaming-asyncapi.yml`, tests/test_base_validation.py:27 -/
example : (do
  discard (load .AsyncAPI3 (.dict [(p!"asyncapi", (.str p!"3.0.0")), (p!"id", (.str p!"tag:stream.gitter.im,2022:api")), (p!"info", (.dict [(p!"title", (.str p!"Gitter Streaming API")), (p!"version", (.str p!"1.0.0"))])), (p!"servers", (.dict [(p!"production", (.dict [(p!"host", (.str p!"stream.gitter.im")), (p!"pathname", (.str p!"/v1")), (p!"protocol", (.str p!"https")), (p!"protocolVersion", (.str p!"1.1")), (p!"security", (.list [(.dict [(p!"$ref", (.str p!"#/components/securitySchemes/httpBearerToken"))])]))]))])), (p!"channels", (.dict [(p!"rooms", (.dict [(p!"address", (.str p!"/rooms/{roomId}/{resource}")), (p!"messages", (.dict [(p!"chatMessage", (.dict [(p!"$ref", (.str p!"#/components/messages/chatMessage"))])), (p!"heartbeat", (.dict [(p!"$ref", (.str p!"#/components/messages/heartbeat"))]))])), (p!"parameters", (.dict [(p!"roomId", (.dict [(p!"description", (.str p!"Id of the Gitter room.")), (p!"examples", (.list [(.str p!"53307860c3599d1de448e19d")]))])), (p!"resource", (.dict [(p!"enum", (.list [(.str p!"chatMessages"), (.str p!"events")])), (p!"description", (.str p!"The resource to consume."))]))]))]))])), (p!"operations", (.dict [(p!"sendRoomInfo", (.dict [(p!"action", (.str p!"send")), (p!"channel", (.dict [(p!"$ref", (.str p!"#/channels/rooms"))])), (p!"bindings", (.dict [(p!"http", (.dict [(p!"method", (.str p!"POST"))]))])), (p!"messages", (.list [(.dict [(p!"$ref", (.str p!"#/channels/rooms/messages/chatMessage"))]), (.dict [(p!"$ref", (.str p!"#/channels/rooms/messages/heartbeat"))])]))]))])), (p!"components", (.dict [(p!"securitySchemes", (.dict [(p!"httpBearerToken", (.dict [(p!"type", (.str p!"http")), (p!"scheme", (.str p!"bearer"))]))])), (p!"messages", (.dict [(p!"chatMessage", (.dict [(p!"summary", (.str p!"A message represents an individual chat message sent to a room. They are a sub-resource of a room.")), (p!"payload", (.dict [(p!"schemaFormat", (.str p!"application/schema+yaml;version=draft-07")), (p!"schema", (.dict [(p!"type", (.str p!"object")), (p!"properties", (.dict [(p!"id", (.dict [(p!"type", (.str p!"string")), (p!"description", (.str p!"ID of the message."))])), (p!"text", (.dict [(p!"type", (.str p!"string")), (p!"description", (.str p!"Original message in plain-text/markdown."))])), (p!"html", (.dict [(p!"type", (.str p!"string")), (p!"description", (.str p!"HTML formatted message."))])), (p!"sent", (.dict [(p!"type", (.str p!"string")), (p!"format", (.str p!"date-time")), (p!"description", (.str p!"ISO formatted date of the message."))])), (p!"fromUser", (.dict [(p!"type", (.str p!"object")), (p!"description", (.str p!"User that sent the message.")), (p!"properties", (.dict [(p!"id", (.dict [(p!"type", (.str p!"string")), (p!"description", (.str p!"Gitter User ID."))])), (p!"username", (.dict [(p!"type", (.str p!"string")), (p!"description", (.str p!"Gitter/GitHub username."))])), (p!"displayName", (.dict [(p!"type", (.str p!"string")), (p!"description", (.str p!"Gitter/GitHub user real name."))])), (p!"url", (.dict [(p!"type", (.str p!"string")), (p!"description", (.str p!"Path to the user on Gitter."))])), (p!"avatarUrl", (.dict [(p!"type", (.str p!"string")), (p!"format", (.str p!"uri")), (p!"description", (.str p!"User avatar URI."))])), (p!"avatarUrlSmall", (.dict [(p!"type", (.str p!"string")), (p!"format", (.str p!"uri")), (p!"description", (.str p!"User avatar URI (small)."))])), (p!"avatarUrlMedium", (.dict [(p!"type", (.str p!"string")), (p!"format", (.str p!"uri")), (p!"description", (.str p!"User avatar URI (medium)."))])), (p!"v", (.dict [(p!"type", (.str p!"number")), (p!"description", (.str p!"Version."))])), (p!"gv", (.dict [(p!"type", (.str p!"string")), (p!"description", (.str p!"Stands for \"Gravatar version\" and is used for cache busting."))]))]))])), (p!"unread", (.dict [(p!"type", (.str p!"boolean")), (p!"description", (.str p!"Boolean that indicates if the current user has read the message."))])), (p!"readBy", (.dict [(p!"type", (.str p!"number")), (p!"description", (.str p!"Number of users that have read the message."))])), (p!"urls", (.dict [(p!"type", (.str p!"array")), (p!"description", (.str p!"List of URLs present in the message.")), (p!"items", (.dict [(p!"type", (.str p!"string")), (p!"format", (.str p!"uri"))]))])), (p!"mentions", (.dict [(p!"type", (.str p!"array")), (p!"description", (.str p!"List of @Mentions in the message.")), (p!"items", (.dict [(p!"type", (.str p!"object")), (p!"properties", (.dict [(p!"screenName", (.dict [(p!"type", (.str p!"string"))])), (p!"userId", (.dict [(p!"type", (.str p!"string"))])), (p!"userIds", (.dict [(p!"type", (.str p!"array")), (p!"items", (.dict [(p!"type", (.str p!"string"))]))]))]))]))])), (p!"issues", (.dict [(p!"type", (.str p!"array")), (p!"description", (.str p!"List of #Issues referenced in the message.")), (p!"items", (.dict [(p!"type", (.str p!"object")), (p!"properties", (.dict [(p!"number", (.dict [(p!"type", (.str p!"string"))]))]))]))])), (p!"meta", (.dict [(p!"type", (.str p!"array")), (p!"description", (.str p!"Metadata. This is currently not used for anything.")), (p!"items", (.dict []))])), (p!"v", (.dict [(p!"type", (.str p!"number")), (p!"description", (.str p!"Version."))])), (p!"gv", (.dict [(p!"type", (.str p!"string")), (p!"description", (.str p!"Stands for \"Gravatar version\" and is used for cache busting."))]))]))]))])), (p!"bindings", (.dict [(p!"http", (.dict [(p!"headers", (.dict [(p!"type", (.str p!"object")), (p!"properties", (.dict [(p!"Transfer-Encoding", (.dict [(p!"type", (.str p!"string")), (p!"const", (.str p!"chunked"))])), (p!"Trailer", (.dict [(p!"type", (.str p!"string")), (p!"const", (.str p!"\\r\\n"))]))]))]))]))]))])), (p!"heartbeat", (.dict [(p!"summary", (.str p!"Its purpose is to keep the connection alive.")), (p!"payload", (.dict [(p!"schemaFormat", (.str p!"application/schema+yaml;version=draft-07")), (p!"schema", (.dict [(p!"type", (.str p!"string")), (p!"enum", (.list [(.str p!"\r\n")]))]))])), (p!"bindings", (.dict [(p!"http", (.dict [(p!"headers", (.dict [(p!"type", (.str p!"object")), (p!"properties", (.dict [(p!"Transfer-Encoding", (.dict [(p!"type", (.str p!"string")), (p!"const", (.str p!"chunked"))])), (p!"Trailer", (.dict [(p!"type", (.str p!"string")), (p!"const", (.str p!"\\r\\n"))]))]))]))]))]))]))]))]))])) : Option Unit).isSome = true := by decide +kernel

/-- `yaml_specs/valid/single_file/http.yaml`, tests/test_base_validation.py:27 -/
example : (do
  discard (load .AsyncAPI3 (.dict [(p!"asyncapi", (.str p!"3.0.0")), (p!"id", (.str p!"tag:stream.gitter.im,2022:api")), (p!"info", (.dict [(p!"title", (.str p!"Gitter Streaming API")), (p!"version", (.str p!"1.0.0"))])), (p!"servers", (.dict [(p!"production", (.dict [(p!"host", (.str p!"stream.gitter.im")), (p!"pathname", (.str p!"/v1")), (p!"protocol", (.str p!"https")), (p!"protocolVersion", (.str p!"1.1")), (p!"security", (.list [(.dict [(p!"$ref", (.str p!"#/components/securitySchemes/httpBearerToken"))])]))]))])), (p!"channels", (.dict [(p!"rooms", (.dict [(p!"address", (.str p!"/rooms/{roomId}/{resource}")), (p!"messages", (.dict [(p!"chatMessage", (.dict [(p!"$ref", (.str p!"#/components/messages/chatMessage"))])), (p!"heartbeat", (.dict [(p!"$ref", (.str p!"#/components/messages/heartbeat"))]))])), (p!"parameters", (.dict [(p!"roomId", (.dict [(p!"description", (.str p!"Id of the Gitter room.")), (p!"examples", (.list [(.str p!"53307860c3599d1de448e19d")]))])), (p!"resource", (.dict [(p!"enum", (.list [(.str p!"chatMessages"), (.str p!"events")])), (p!"description", (.str p!"The resource to consume."))]))]))]))])), (p!"operations", (.dict [(p!"sendRoomInfo", (.dict [(p!"action", (.str p!"send")), (p!"channel", (.dict [(p!"$ref", (.str p!"#/channels/rooms"))])), (p!"bindings", (.dict [(p!"http", (.dict [(p!"method", (.str p!"POST"))]))])), (p!"messages", (.list [(.dict [(p!"$ref", (.str p!"#/channels/rooms/messages/chatMessage"))]), (.dict [(p!"$ref", (.str p!"#/channels/rooms/messages/heartbeat"))])]))]))])), (p!"components", (.dict [(p!"securitySchemes", (.dict [(p!"httpBearerToken", (.dict [(p!"type", (.str p!"http")), (p!"scheme", (.str p!"bearer"))]))])), (p!"messages", (.dict [(p!"chatMessage", (.dict [(p!"summary", (.str p!"A message represents an individual chat message sent to a room. They are a sub-resource of a room.")), (p!"payload", (.dict [(p!"schemaFormat", (.str p!"application/schema+yaml;version=draft-07")), (p!"schema", (.dict [(p!"type", (.str p!"object")), (p!"properties", (.dict [(p!"id", (.dict [(p!"type", (.str p!"string")), (p!"description", (.str p!"ID of the message."))])), (p!"text", (.dict [(p!"type", (.str p!"string")), (p!"description", (.str p!"Original message in plain-text/markdown."))])), (p!"html", (.dict [(p!"type", (.str p!"string")), (p!"description", (.str p!"HTML formatted message."))])), (p!"sent", (.dict [(p!"type", (.str p!"string")), (p!"format", (.str p!"date-time")), (p!"description", (.str p!"ISO formatted date of the message."))])), (p!"fromUser", (.dict [(p!"type", (.str p!"object")), (p!"description", (.str p!"User that sent the message.")), (p!"properties", (.dict [(p!"id", (.dict [(p!"type", (.str p!"string")), (p!"description", (.str p!"Gitter User ID."))])), (p!"username", (.dict [(p!"type", (.str p!"string")), (p!"description", (.str p!"Gitter/GitHub username."))])), (p!"displayName", (.dict [(p!"type", (.str p!"string")), (p!"description", (.str p!"Gitter/GitHub user real name."))])), (p!"url", (.dict [(p!"type", (.str p!"string")), (p!"description", (.str p!"Path to the user on Gitter."))])), (p!"avatarUrl", (.dict [(p!"type", (.str p!"string")), (p!"format", (.str p!"uri")), (p!"description", (.str p!"User avatar URI."))])), (p!"avatarUrlSmall", (.dict [(p!"type", (.str p!"string")), (p!"format", (.str p!"uri")), (p!"description", (.str p!"User avatar URI (small)."))])), (p!"avatarUrlMedium", (.dict [(p!"type", (.str p!"string")), (p!"format", (.str p!"uri")), (p!"description", (.str p!"User avatar URI (medium)."))])), (p!"v", (.dict [(p!"type", (.str p!"number")), (p!"description", (.str p!"Version."))])), (p!"gv", (.dict [(p!"type", (.str p!"string")), (p!"description", (.str p!"Stands for \"Gravatar version\" and is used for cache busting."))]))]))])), (p!"unread", (.dict [(p!"type", (.str p!"boolean")), (p!"description", (.str p!"Boolean that indicates if the current user has read the message."))])), (p!"readBy", (.dict [(p!"type", (.str p!"number")), (p!"description", (.str p!"Number of users that have read the message."))])), (p!"urls", (.dict [(p!"type", (.str p!"array")), (p!"description", (.str p!"List of URLs present in the message.")), (p!"items", (.dict [(p!"type", (.str p!"string")), (p!"format", (.str p!"uri"))]))])), (p!"mentions", (.dict [(p!"type", (.str p!"array")), (p!"description", (.str p!"List of @Mentions in the message.")), (p!"items", (.dict [(p!"type", (.str p!"object")), (p!"properties", (.dict [(p!"screenName", (.dict [(p!"type", (.str p!"string"))])), (p!"userId", (.dict [(p!"type", (.str p!"string"))])), (p!"userIds", (.dict [(p!"type", (.str p!"array")), (p!"items", (.dict [(p!"type", (.str p!"string"))]))]))]))]))])), (p!"issues", (.dict [(p!"type", (.str p!"array")), (p!"description", (.str p!"List of #Issues referenced in the message.")), (p!"items", (.dict [(p!"type", (.str p!"object")), (p!"properties", (.dict [(p!"number", (.dict [(p!"type", (.str p!"string"))]))]))]))])), (p!"meta", (.dict [(p!"type", (.str p!"array")), (p!"description", (.str p!"Metadata. This is currently not used for anything.")), (p!"items", (.dict []))])), (p!"v", (.dict [(p!"type", (.str p!"number")), (p!"description", (.str p!"Version."))])), (p!"gv", (.dict [(p!"type", (.str p!"string")), (p!"description", (.str p!"Stands for \"Gravatar version\" and is used for cache busting."))]))]))]))])), (p!"bindings", (.dict [(p!"http", (.dict [(p!"headers", (.dict [(p!"type", (.str p!"object")), (p!"properties", (.dict [(p!"Transfer-Encoding", (.dict [(p!"type", (.str p!"string")), (p!"const", (.str p!"chunked"))])), (p!"Trailer", (.dict [(p!"type", (.str p!"string")), (p!"const", (.str p!"\\r\\n"))]))]))]))]))]))])), (p!"heartbeat", (.dict [(p!"summary", (.str p!"Its purpose is to keep the connection alive.")), (p!"payload", (.dict [(p!"schemaFormat", (.str p!"application/schema+yaml;version=draft-07")), (p!"schema", (.dict [(p!"type", (.str p!"string")), (p!"enum", (.list [(.str p!"\r\n")]))]))])), (p!"bindings", (.dict [(p!"http", (.dict [(p!"headers", (.dict [(p!"type", (.str p!"object")), (p!"properties", (.dict [(p!"Transfer-Encoding", (.dict [(p!"type", (.str p!"string")), (p!"const", (.str p!"chunked"))])), (p!"Trailer", (.dict [(p!"type", (.str p!"string")), (p!"const", (.str p!"\\r\\n"))]))]))]))]))]))]))]))]))])) : Option Unit).isSome = true := by decide +kernel

/-- `yaml_specs/valid/single_file/ibm_mq.yaml`, tests/test_base_validation.py:27 -/
example : (do
  discard (load .AsyncAPI3 (.dict [(p!"asyncapi", (.str p!"3.0.0")), (p!"info", (.dict [(p!"title", (.str p!"Record Label Service")), (p!"version", (.str p!"1.1.0")), (p!"description", (.str p!"This service is in charge of processing music")), (p!"license", (.dict [(p!"name", (.str p!"Apache License 2.0")), (p!"url", (.str p!"https://www.apache.org/licenses/LICENSE-2.0"))]))])), (p!"servers", (.dict [(p!"production", (.dict [(p!"host", (.str p!"localhost:1414")), (p!"pathname", (.str p!"/QM1/DEV.APP.SVRCONN")), (p!"protocol", (.str p!"ibmmq-secure")), (p!"description", (.str p!"Production Instance 1")), (p!"bindings", (.dict [(p!"ibmmq", (.dict [(p!"cipherSpec", (.str p!"ANY_TLS12"))]))]))]))])), (p!"channels", (.dict [(p!"songReleased", (.dict [(p!"address", (.str p!"song/released")), (p!"messages", (.dict [(p!"Song", (.dict [(p!"$ref", (.str p!"#/components/messages/Song"))]))]))]))])), (p!"operations", (.dict [(p!"receiveSong", (.dict [(p!"action", (.str p!"receive")), (p!"channel", (.dict [(p!"$ref", (.str p!"#/channels/songReleased"))])), (p!"messages", (.list [(.dict [(p!"$ref", (.str p!"#/channels/songReleased/messages/Song"))])]))])), (p!"sendSong", (.dict [(p!"action", (.str p!"send")), (p!"channel", (.dict [(p!"$ref", (.str p!"#/channels/songReleased"))])), (p!"messages", (.list [(.dict [(p!"$ref", (.str p!"#/channels/songReleased/messages/Song"))])]))]))])), (p!"components", (.dict [(p!"messages", (.dict [(p!"Song", (.dict [(p!"payload", (.dict [(p!"type", (.str p!"object")), (p!"properties", (.dict [(p!"title", (.dict [(p!"type", (.str p!"string")), (p!"description", (.str p!"Song title"))])), (p!"artist", (.dict [(p!"type", (.str p!"string")), (p!"description", (.str p!"Song artist"))])), (p!"album", (.dict [(p!"type", (.str p!"string")), (p!"description", (.str p!"Song album"))])), (p!"genre", (.dict [(p!"type", (.str p!"string")), (p!"description", (.str p!"Primary song genre"))])), (p!"length", (.dict [(p!"type", (.str p!"integer")), (p!"description", (.str p!"Track length in seconds"))]))]))]))]))]))]))])) : Option Unit).isSome = true := by decide +kernel

/-- `yaml_specs/valid/single_file/kraken-websocket-request-reply-message-filter-in-reply-asyncapi.yml`, tests/test_base_validation.py:27 -/
example : (do
  discard (load .AsyncAPI3 (.dict [(p!"asyncapi", (.str p!"3.0.0")), (p!"info", (.dict [(p!"title", (.str p!"Kraken Websockets API")), (p!"version", (.str p!"1.8.0")), (p!"description", (.str p!"WebSockets API offers real-time market data updates. WebSockets is a bidirectional protocol offering fastest real-time data, helping you build real-time applications. The public message types presented below do not require authentication. Private-data messages can be subscribed on a separate authenticated endpoint.\n\n### General Considerations\n\n- TLS with SNI (Server Name Indication) is required in order to establish a Kraken WebSockets API connection. See Cloudflare's [What is SNI?](https://www.cloudflare.com/learning/ssl/what-is-sni/) guide for more details.\n- All messages sent and received via WebSockets are encoded in JSON format\n- All decimal fields (including timestamps) are quoted to preserve precision.\n- Timestamps should not be considered unique and not be considered as aliases for transaction IDs. Also, the granularity of timestamps is not representative of transaction rates.\n- At least one private message should be subscribed to keep the authenticated client connection open.\n- Please use REST API endpoint [AssetPairs](https://www.kraken.com/features/api#get-tradable-pairs) to fetch the list of pairs which can be subscribed via WebSockets API. For example, field 'wsname' gives the supported pairs name which can be used to subscribe.\n- Cloudflare imposes a connection/re-connection rate limit (per IP address) of approximately 150 attempts per rolling 10 minutes. If this is exceeded, the IP is banned for 10 minutes.\n- Recommended reconnection behaviour is to (1) attempt reconnection instantly up to a handful of times if the websocket is dropped randomly during normal operation but (2) after maintenance or extended downtime, attempt to reconnect no more quickly than once every 5 seconds. There is no advantage to reconnecting more rapidly after maintenance during cancel_only mode.\n"))])), (p!"channels", (.dict [(p!"currencyExchange", (.dict [(p!"address", (.str p!"/")), (p!"messages", (.dict [(p!"ping", (.dict [(p!"$ref", (.str p!"#/components/messages/ping"))])), (p!"pong", (.dict [(p!"$ref", (.str p!"#/components/messages/pong"))])), (p!"heartbeat", (.dict [(p!"$ref", (.str p!"#/components/messages/heartbeat"))])), (p!"systemStatus", (.dict [(p!"$ref", (.str p!"#/components/messages/systemStatus"))])), (p!"subscriptionStatus", (.dict [(p!"$ref", (.str p!"#/components/messages/subscriptionStatus"))])), (p!"subscribe", (.dict [(p!"$ref", (.str p!"#/components/messages/subscribe"))])), (p!"unsubscribe", (.dict [(p!"$ref", (.str p!"#/components/messages/unsubscribe"))])), (p!"dummyCurrencyInfo", (.dict [(p!"$ref", (.str p!"#/components/messages/dummyCurrencyInfo"))]))]))]))])), (p!"operations", (.dict [(p!"receivePing", (.dict [(p!"action", (.str p!"receive")), (p!"channel", (.dict [(p!"$ref", (.str p!"#/channels/currencyExchange"))])), (p!"reply", (.dict [(p!"channel", (.dict [(p!"$ref", (.str p!"#/channels/currencyExchange"))])), (p!"messages", (.list [(.dict [(p!"$ref", (.str p!"#/channels/currencyExchange/messages/pong"))])]))])), (p!"messages", (.list [(.dict [(p!"$ref", (.str p!"#/channels/currencyExchange/messages/ping"))])]))])), (p!"sendHeartbeat", (.dict [(p!"action", (.str p!"send")), (p!"channel", (.dict [(p!"$ref", (.str p!"#/channels/currencyExchange"))])), (p!"messages", (.list [(.dict [(p!"$ref", (.str p!"#/channels/currencyExchange/messages/heartbeat"))])]))])), (p!"systemStatus", (.dict [(p!"action", (.str p!"send")), (p!"channel", (.dict [(p!"$ref", (.str p!"#/channels/currencyExchange"))])), (p!"messages", (.list [(.dict [(p!"$ref", (.str p!"#/channels/currencyExchange/messages/systemStatus"))])]))])), (p!"receiveSubscribeRequest", (.dict [(p!"action", (.str p!"receive")), (p!"channel", (.dict [(p!"$ref", (.str p!"#/channels/currencyExchange"))])), (p!"reply", (.dict [(p!"channel", (.dict [(p!"$ref", (.str p!"#/channels/currencyExchange"))])), (p!"messages", (.list [(.dict [(p!"$ref", (.str p!"#/channels/currencyExchange/messages/subscriptionStatus"))]), (.dict [(p!"$ref", (.str p!"#/channels/currencyExchange/messages/dummyCurrencyInfo"))])]))])), (p!"messages", (.list [(.dict [(p!"$ref", (.str p!"#/channels/currencyExchange/messages/subscribe"))])]))])), (p!"receiveUnsubscribeRequest", (.dict [(p!"action", (.str p!"receive")), (p!"channel", (.dict [(p!"$ref", (.str p!"#/channels/currencyExchange"))])), (p!"reply", (.dict [(p!"channel", (.dict [(p!"$ref", (.str p!"#/channels/currencyExchange"))])), (p!"messages", (.list [(.dict [(p!"$ref", (.str p!"#/channels/currencyExchange/messages/subscriptionStatus"))])]))])), (p!"messages", (.list [(.dict [(p!"$ref", (.str p!"#/channels/currencyExchange/messages/unsubscribe"))])]))]))])), (p!"components", (.dict [(p!"messages", (.dict [(p!"dummyCurrencyInfo", (.dict [(p!"summary", (.str p!"Dummy message with no real life details")), (p!"description", (.str p!"It is here in this example to showcase that there is an additional message that normally is of a complex structure. It represents actually currency exchange value to show a reply to operation receiveSubscribeRequest with more than one possible message.")), (p!"payload", (.dict [(p!"type", (.str p!"object")), (p!"properties", (.dict [(p!"event", (.dict [(p!"type", (.str p!"string")), (p!"const", (.str p!"currencyInfo"))])), (p!"reqid", (.dict [(p!"$ref", (.str p!"#/components/schemas/reqid"))])), (p!"data", (.dict [(p!"type", (.str p!"object"))]))])), (p!"required", (.list [(.str p!"event")]))])), (p!"correlationId", (.dict [(p!"location", (.str p!"$message.payload#/reqid"))]))])), (p!"ping", (.dict [(p!"summary", (.str p!"Ping server to determine whether connection is alive")), (p!"description", (.str p!"Client can ping server to determine whether connection is alive, server responds with pong. This is an application level ping as opposed to default ping in websockets standard which is server initiated")), (p!"payload", (.dict [(p!"$ref", (.str p!"#/components/schemas/ping"))])), (p!"correlationId", (.dict [(p!"location", (.str p!"$message.payload#/reqid"))]))])), (p!"pong", (.dict [(p!"summary", (.str p!"Pong is a response to ping message")), (p!"description", (.str p!"Server pong response to a ping to determine whether connection is alive. This is an application level pong as opposed to default pong in websockets standard which is sent by client in response to a ping")), (p!"payload", (.dict [(p!"$ref", (.str p!"#/components/schemas/pong"))])), (p!"correlationId", (.dict [(p!"location", (.str p!"$message.payload#/reqid"))]))])), (p!"subscribe", (.dict [(p!"description", (.str p!"Subscribe to a topic on a single or multiple currency pairs.")), (p!"payload", (.dict [(p!"$ref", (.str p!"#/components/schemas/subscribe"))])), (p!"correlationId", (.dict [(p!"location", (.str p!"$message.payload#/reqid"))]))])), (p!"unsubscribe", (.dict [(p!"description", (.str p!"Unsubscribe, can specify a channelID or multiple currency pairs.")), (p!"payload", (.dict [(p!"$ref", (.str p!"#/components/schemas/unsubscribe"))])), (p!"correlationId", (.dict [(p!"location", (.str p!"$message.payload#/reqid"))]))])), (p!"subscriptionStatus", (.dict [(p!"description", (.str p!"Subscription status response to subscribe, unsubscribe or exchange initiated unsubscribe.")), (p!"payload", (.dict [(p!"$ref", (.str p!"#/components/schemas/subscriptionStatus"))])), (p!"examples", (.list [(.dict [(p!"payload", (.dict [(p!"channelID", (.int (10001))), (p!"channelName", (.str p!"ohlc-5")), (p!"event", (.str p!"subscriptionStatus")), (p!"pair", (.str p!"XBT/EUR")), (p!"reqid", (.int (42))), (p!"status", (.str p!"unsubscribed")), (p!"subscription", (.dict [(p!"interval", (.int (5))), (p!"name", (.str p!"ohlc"))]))]))]), (.dict [(p!"payload", (.dict [(p!"errorMessage", (.str p!"Subscription depth not supported")), (p!"event", (.str p!"subscriptionStatus")), (p!"pair", (.str p!"XBT/USD")), (p!"status", (.str p!"error")), (p!"subscription", (.dict [(p!"depth", (.int (42))), (p!"name", (.str p!"book"))]))]))])]))])), (p!"systemStatus", (.dict [(p!"description", (.str p!"Status sent on connection or system status changes.")), (p!"payload", (.dict [(p!"$ref", (.str p!"#/components/schemas/systemStatus"))]))])), (p!"heartbeat", (.dict [(p!"description", (.str p!"Server heartbeat sent if no subscription traffic within 1 second (approximately)")), (p!"payload", (.dict [(p!"$ref", (.str p!"#/components/schemas/heartbeat"))]))]))])), (p!"schemas", (.dict [(p!"ping", (.dict [(p!"type", (.str p!"object")), (p!"properties", (.dict [(p!"event", (.dict [(p!"type", (.str p!"string")), (p!"const", (.str p!"ping"))])), (p!"reqid", (.dict [(p!"$ref", (.str p!"#/components/schemas/reqid"))]))])), (p!"required", (.list [(.str p!"event")]))])), (p!"heartbeat", (.dict [(p!"type", (.str p!"object")), (p!"properties", (.dict [(p!"event", (.dict [(p!"type", (.str p!"string")), (p!"const", (.str p!"heartbeat"))]))]))])), (p!"pong", (.dict [(p!"type", (.str p!"object")), (p!"properties", (.dict [(p!"event", (.dict [(p!"type", (.str p!"string")), (p!"const", (.str p!"pong"))])), (p!"reqid", (.dict [(p!"$ref", (.str p!"#/components/schemas/reqid"))]))]))])), (p!"systemStatus", (.dict [(p!"type", (.str p!"object")), (p!"properties", (.dict [(p!"event", (.dict [(p!"type", (.str p!"string")), (p!"const", (.str p!"systemStatus"))])), (p!"connectionID", (.dict [(p!"type", (.str p!"integer")), (p!"description", (.str p!"The ID of the connection"))])), (p!"status", (.dict [(p!"$ref", (.str p!"#/components/schemas/status"))])), (p!"version", (.dict [(p!"type", (.str p!"string"))]))]))])), (p!"status", (.dict [(p!"type", (.str p!"string")), (p!"enum", (.list [(.str p!"online"), (.str p!"maintenance"), (.str p!"cancel_only"), (.str p!"limit_only"), (.str p!"post_only")]))])), (p!"subscribe", (.dict [(p!"type", (.str p!"object")), (p!"properties", (.dict [(p!"event", (.dict [(p!"type", (.str p!"string")), (p!"const", (.str p!"subscribe"))])), (p!"reqid", (.dict [(p!"$ref", (.str p!"#/components/schemas/reqid"))])), (p!"pair", (.dict [(p!"$ref", (.str p!"#/components/schemas/pair"))])), (p!"subscription", (.dict [(p!"type", (.str p!"object")), (p!"properties", (.dict [(p!"depth", (.dict [(p!"$ref", (.str p!"#/components/schemas/depth"))])), (p!"interval", (.dict [(p!"$ref", (.str p!"#/components/schemas/interval"))])), (p!"name", (.dict [(p!"$ref", (.str p!"#/components/schemas/name"))])), (p!"ratecounter", (.dict [(p!"$ref", (.str p!"#/components/schemas/ratecounter"))])), (p!"snapshot", (.dict [(p!"$ref", (.str p!"#/components/schemas/snapshot"))])), (p!"token", (.dict [(p!"$ref", (.str p!"#/components/schemas/token"))]))])), (p!"required", (.list [(.str p!"name")]))]))])), (p!"required", (.list [(.str p!"event")]))])), (p!"unsubscribe", (.dict [(p!"type", (.str p!"object")), (p!"properties", (.dict [(p!"event", (.dict [(p!"type", (.str p!"string")), (p!"const", (.str p!"unsubscribe"))])), (p!"reqid", (.dict [(p!"$ref", (.str p!"#/components/schemas/reqid"))])), (p!"pair", (.dict [(p!"$ref", (.str p!"#/components/schemas/pair"))])), (p!"subscription", (.dict [(p!"type", (.str p!"object")), (p!"properties", (.dict [(p!"depth", (.dict [(p!"$ref", (.str p!"#/components/schemas/depth"))])), (p!"interval", (.dict [(p!"$ref", (.str p!"#/components/schemas/interval"))])), (p!"name", (.dict [(p!"$ref", (.str p!"#/components/schemas/name"))])), (p!"token", (.dict [(p!"$ref", (.str p!"#/components/schemas/token"))]))])), (p!"required", (.list [(.str p!"name")]))]))])), (p!"required", (.list [(.str p!"event")]))])), (p!"subscriptionStatus", (.dict [(p!"type", (.str p!"object")), (p!"oneOf", (.list [(.dict [(p!"$ref", (.str p!"#/components/schemas/subscriptionStatusError"))]), (.dict [(p!"$ref", (.str p!"#/components/schemas/subscriptionStatusSuccess"))])]))])), (p!"subscriptionStatusError", (.dict [(p!"allOf", (.list [(.dict [(p!"properties", (.dict [(p!"errorMessage", (.dict [(p!"type", (.str p!"string"))]))])), (p!"required", (.list [(.str p!"errorMessage")]))]), (.dict [(p!"$ref", (.str p!"#/components/schemas/subscriptionStatusCommon"))])]))])), (p!"subscriptionStatusSuccess", (.dict [(p!"allOf", (.list [(.dict [(p!"properties", (.dict [(p!"channelID", (.dict [(p!"type", (.str p!"integer")), (p!"description", (.str p!"ChannelID on successful subscription, applicable to public messages only."))])), (p!"channelName", (.dict [(p!"type", (.str p!"string")), (p!"description", (.str p!"Channel Name on successful subscription. For payloads 'ohlc' and 'book', respective interval or depth will be added as suffix."))]))])), (p!"required", (.list [(.str p!"channelID"), (.str p!"channelName")]))]), (.dict [(p!"$ref", (.str p!"#/components/schemas/subscriptionStatusCommon"))])]))])), (p!"subscriptionStatusCommon", (.dict [(p!"type", (.str p!"object")), (p!"required", (.list [(.str p!"event")])), (p!"properties", (.dict [(p!"event", (.dict [(p!"type", (.str p!"string")), (p!"const", (.str p!"subscriptionStatus"))])), (p!"reqid", (.dict [(p!"$ref", (.str p!"#/components/schemas/reqid"))])), (p!"pair", (.dict [(p!"$ref", (.str p!"#/components/schemas/pair"))])), (p!"status", (.dict [(p!"$ref", (.str p!"#/components/schemas/status"))])), (p!"subscription", (.dict [(p!"required", (.list [(.str p!"name")])), (p!"type", (.str p!"object")), (p!"properties", (.dict [(p!"depth", (.dict [(p!"$ref", (.str p!"#/components/schemas/depth"))])), (p!"interval", (.dict [(p!"$ref", (.str p!"#/components/schemas/interval"))])), (p!"maxratecount", (.dict [(p!"$ref", (.str p!"#/components/schemas/maxratecount"))])), (p!"name", (.dict [(p!"$ref", (.str p!"#/components/schemas/name"))])), (p!"token", (.dict [(p!"$ref", (.str p!"#/components/schemas/token"))]))]))]))]))])), (p!"interval", (.dict [(p!"type", (.str p!"integer")), (p!"description", (.str p!"Time interval associated with ohlc subscription in minutes.")), (p!"default", (.int (1))), (p!"enum", (.list [(.int (1)), (.int (5)), (.int (15)), (.int (30)), (.int (60)), (.int (240)), (.int (1440)), (.int (10080)), (.int (21600))]))])), (p!"name", (.dict [(p!"type", (.str p!"string")), (p!"description", (.str p!"The name of the channel you subscribe too.")), (p!"enum", (.list [(.str p!"book"), (.str p!"ohlc"), (.str p!"openOrders"), (.str p!"ownTrades"), (.str p!"spread"), (.str p!"ticker"), (.str p!"trade")]))])), (p!"token", (.dict [(p!"type", (.str p!"string")), (p!"description", (.str p!"base64-encoded authentication token for private-data endpoints."))])), (p!"depth", (.dict [(p!"type", (.str p!"integer")), (p!"default", (.int (10))), (p!"enum", (.list [(.int (10)), (.int (25)), (.int (100)), (.int (500)), (.int (1000))])), (p!"description", (.str p!"Depth associated with book subscription in number of levels each side."))])), (p!"maxratecount", (.dict [(p!"type", (.str p!"integer")), (p!"description", (.str p!"Max rate-limit budget. Compare to the ratecounter field in the openOrders updates to check whether you are approaching the rate limit."))])), (p!"ratecounter", (.dict [(p!"type", (.str p!"boolean")), (p!"default", (.bool false)), (p!"description", (.str p!"Whether to send rate-limit counter in updates (supported only for openOrders subscriptions)"))])), (p!"snapshot", (.dict [(p!"type", (.str p!"boolean")), (p!"default", (.bool true)), (p!"description", (.str p!"Whether to send historical feed data snapshot upon subscription (supported only for ownTrades subscriptions)"))])), (p!"reqid", (.dict [(p!"type", (.str p!"integer")), (p!"description", (.str p!"client originated ID reflected in response message."))])), (p!"pair", (.dict [(p!"type", (.str p!"array")), (p!"description", (.str p!"Array of currency pairs.")), (p!"items", (.dict [(p!"type", (.str p!"string")), (p!"description", (.str p!"Format of each pair is \"A/B\", where A and B are ISO 4217-A3 for standardized assets and popular unique symbol if not standardized.")), (p!"pattern", (.str p!"[A-Z\\s]+\\/[A-Z\\s]+"))]))]))]))]))])) : Option Unit).isSome = true := by decide +kernel

/-- `yaml_specs/valid/single_file/kraken-websocket-request-reply-multiple-channels-asyncapi.yml`, tests/test_base_validation.py:27 -/
example : (do
  discard (load .AsyncAPI3 (.dict [(p!"asyncapi", (.str p!"3.0.0")), (p!"info", (.dict [(p!"title", (.str p!"Kraken Websockets API")), (p!"version", (.str p!"1.8.0")), (p!"description", (.str p!"WebSockets API offers real-time market data updates. WebSockets is a bidirectional protocol offering fastest real-time data, helping you build real-time applications. The public message types presented below do not require authentication. Private-data messages can be subscribed on a separate authenticated endpoint.\n\n### General Considerations\n\n- TLS with SNI (Server Name Indication) is required in order to establish a Kraken WebSockets API connection. See Cloudflare's [What is SNI?](https://www.cloudflare.com/learning/ssl/what-is-sni/) guide for more details.\n- All messages sent and received via WebSockets are encoded in JSON format\n- All decimal fields (including timestamps) are quoted to preserve precision.\n- Timestamps should not be considered unique and not be considered as aliases for transaction IDs. Also, the granularity of timestamps is not representative of transaction rates.\n- At least one private message should be subscribed to keep the authenticated client connection open.\n- Please use REST API endpoint [AssetPairs](https://www.kraken.com/features/api#get-tradable-pairs) to fetch the list of pairs which can be subscribed via WebSockets API. For example, field 'wsname' gives the supported pairs name which can be used to subscribe.\n- Cloudflare imposes a connection/re-connection rate limit (per IP address) of approximately 150 attempts per rolling 10 minutes. If this is exceeded, the IP is banned for 10 minutes.\n- Recommended reconnection behaviour is to (1) attempt reconnection instantly up to a handful of times if the websocket is dropped randomly during normal operation but (2) after maintenance or extended downtime, attempt to reconnect no more quickly than once every 5 seconds. There is no advantage to reconnecting more rapidly after maintenance during cancel_only mode.\n"))])), (p!"channels", (.dict [(p!"ping", (.dict [(p!"address", (.str p!"/")), (p!"messages", (.dict [(p!"ping", (.dict [(p!"$ref", (.str p!"#/components/messages/ping"))]))]))])), (p!"pong", (.dict [(p!"address", (.str p!"/")), (p!"messages", (.dict [(p!"pong", (.dict [(p!"$ref", (.str p!"#/components/messages/pong"))]))]))])), (p!"heartbeat", (.dict [(p!"address", (.str p!"/")), (p!"messages", (.dict [(p!"heartbeat", (.dict [(p!"$ref", (.str p!"#/components/messages/heartbeat"))]))]))])), (p!"systemStatus", (.dict [(p!"address", (.str p!"/")), (p!"messages", (.dict [(p!"systemStatus", (.dict [(p!"$ref", (.str p!"#/components/messages/systemStatus"))]))]))])), (p!"currencyInfo", (.dict [(p!"address", (.str p!"/")), (p!"messages", (.dict [(p!"subscriptionStatus", (.dict [(p!"$ref", (.str p!"#/components/messages/subscriptionStatus"))])), (p!"dummyCurrencyInfo", (.dict [(p!"$ref", (.str p!"#/components/messages/dummyCurrencyInfo"))]))]))])), (p!"subscribe", (.dict [(p!"address", (.str p!"/")), (p!"messages", (.dict [(p!"subscribe", (.dict [(p!"$ref", (.str p!"#/components/messages/subscribe"))]))]))])), (p!"unsubscribe", (.dict [(p!"address", (.str p!"/")), (p!"messages", (.dict [(p!"unsubscribe", (.dict [(p!"$ref", (.str p!"#/components/messages/unsubscribe"))]))]))]))])), (p!"operations", (.dict [(p!"receivePing", (.dict [(p!"action", (.str p!"receive")), (p!"channel", (.dict [(p!"$ref", (.str p!"#/channels/ping"))])), (p!"reply", (.dict [(p!"channel", (.dict [(p!"$ref", (.str p!"#/channels/pong"))]))]))])), (p!"heartbeat", (.dict [(p!"action", (.str p!"send")), (p!"channel", (.dict [(p!"$ref", (.str p!"#/channels/heartbeat"))]))])), (p!"systemStatus", (.dict [(p!"action", (.str p!"send")), (p!"channel", (.dict [(p!"$ref", (.str p!"#/channels/systemStatus"))]))])), (p!"subscribe", (.dict [(p!"action", (.str p!"receive")), (p!"channel", (.dict [(p!"$ref", (.str p!"#/channels/subscribe"))])), (p!"reply", (.dict [(p!"channel", (.dict [(p!"$ref", (.str p!"#/channels/currencyInfo"))]))]))])), (p!"unsubscribe", (.dict [(p!"action", (.str p!"receive")), (p!"channel", (.dict [(p!"$ref", (.str p!"#/channels/unsubscribe"))])), (p!"reply", (.dict [(p!"channel", (.dict [(p!"$ref", (.str p!"#/channels/currencyInfo"))])), (p!"messages", (.list [(.dict [(p!"$ref", (.str p!"#/channels/currencyInfo/messages/subscriptionStatus"))])]))]))]))])), (p!"components", (.dict [(p!"messages", (.dict [(p!"dummyCurrencyInfo", (.dict [(p!"summary", (.str p!"Dummy message with no real life details")), (p!"description", (.str p!"It is here in this example to showcase that there is an additional message that normally is of a complex structure. It represents actually currency exchange value to show a reply to operation receiveSubscribeRequest with more than one possible message.")), (p!"payload", (.dict [(p!"type", (.str p!"object")), (p!"properties", (.dict [(p!"event", (.dict [(p!"type", (.str p!"string")), (p!"const", (.str p!"currencyInfo"))])), (p!"reqid", (.dict [(p!"$ref", (.str p!"#/components/schemas/reqid"))])), (p!"data", (.dict [(p!"type", (.str p!"object"))]))])), (p!"required", (.list [(.str p!"event")]))])), (p!"correlationId", (.dict [(p!"location", (.str p!"$message.payload#/reqid"))]))])), (p!"ping", (.dict [(p!"summary", (.str p!"Ping server to determine whether connection is alive")), (p!"description", (.str p!"Client can ping server to determine whether connection is alive, server responds with pong. This is an application level ping as opposed to default ping in websockets standard which is server initiated")), (p!"payload", (.dict [(p!"$ref", (.str p!"#/components/schemas/ping"))])), (p!"correlationId", (.dict [(p!"location", (.str p!"$message.payload#/reqid"))]))])), (p!"pong", (.dict [(p!"summary", (.str p!"Pong is a response to ping message")), (p!"description", (.str p!"Server pong response to a ping to determine whether connection is alive. This is an application level pong as opposed to default pong in websockets standard which is sent by client in response to a ping")), (p!"payload", (.dict [(p!"$ref", (.str p!"#/components/schemas/pong"))])), (p!"correlationId", (.dict [(p!"location", (.str p!"$message.payload#/reqid"))]))])), (p!"subscribe", (.dict [(p!"description", (.str p!"Subscribe to a topic on a single or multiple currency pairs.")), (p!"payload", (.dict [(p!"$ref", (.str p!"#/components/schemas/subscribe"))])), (p!"correlationId", (.dict [(p!"location", (.str p!"$message.payload#/reqid"))]))])), (p!"unsubscribe", (.dict [(p!"description", (.str p!"Unsubscribe, can specify a channelID or multiple currency pairs.")), (p!"payload", (.dict [(p!"$ref", (.str p!"#/components/schemas/unsubscribe"))])), (p!"correlationId", (.dict [(p!"location", (.str p!"$message.payload#/reqid"))]))])), (p!"subscriptionStatus", (.dict [(p!"description", (.str p!"Subscription status response to subscribe, unsubscribe or exchange initiated unsubscribe.")), (p!"payload", (.dict [(p!"$ref", (.str p!"#/components/schemas/subscriptionStatus"))])), (p!"examples", (.list [(.dict [(p!"payload", (.dict [(p!"channelID", (.int (10001))), (p!"channelName", (.str p!"ohlc-5")), (p!"event", (.str p!"subscriptionStatus")), (p!"pair", (.str p!"XBT/EUR")), (p!"reqid", (.int (42))), (p!"status", (.str p!"unsubscribed")), (p!"subscription", (.dict [(p!"interval", (.int (5))), (p!"name", (.str p!"ohlc"))]))]))]), (.dict [(p!"payload", (.dict [(p!"errorMessage", (.str p!"Subscription depth not supported")), (p!"event", (.str p!"subscriptionStatus")), (p!"pair", (.str p!"XBT/USD")), (p!"status", (.str p!"error")), (p!"subscription", (.dict [(p!"depth", (.int (42))), (p!"name", (.str p!"book"))]))]))])]))])), (p!"systemStatus", (.dict [(p!"description", (.str p!"Status sent on connection or system status changes.")), (p!"payload", (.dict [(p!"$ref", (.str p!"#/components/schemas/systemStatus"))]))])), (p!"heartbeat", (.dict [(p!"description", (.str p!"Server heartbeat sent if no subscription traffic within 1 second (approximately)")), (p!"payload", (.dict [(p!"$ref", (.str p!"#/components/schemas/heartbeat"))]))]))])), (p!"schemas", (.dict [(p!"ping", (.dict [(p!"type", (.str p!"object")), (p!"properties", (.dict [(p!"event", (.dict [(p!"type", (.str p!"string")), (p!"const", (.str p!"ping"))])), (p!"reqid", (.dict [(p!"$ref", (.str p!"#/components/schemas/reqid"))]))])), (p!"required", (.list [(.str p!"event")]))])), (p!"heartbeat", (.dict [(p!"type", (.str p!"object")), (p!"properties", (.dict [(p!"event", (.dict [(p!"type", (.str p!"string")), (p!"const", (.str p!"heartbeat"))]))]))])), (p!"pong", (.dict [(p!"type", (.str p!"object")), (p!"properties", (.dict [(p!"event", (.dict [(p!"type", (.str p!"string")), (p!"const", (.str p!"pong"))])), (p!"reqid", (.dict [(p!"$ref", (.str p!"#/components/schemas/reqid"))]))]))])), (p!"systemStatus", (.dict [(p!"type", (.str p!"object")), (p!"properties", (.dict [(p!"event", (.dict [(p!"type", (.str p!"string")), (p!"const", (.str p!"systemStatus"))])), (p!"connectionID", (.dict [(p!"type", (.str p!"integer")), (p!"description", (.str p!"The ID of the connection"))])), (p!"status", (.dict [(p!"$ref", (.str p!"#/components/schemas/status"))])), (p!"version", (.dict [(p!"type", (.str p!"string"))]))]))])), (p!"status", (.dict [(p!"type", (.str p!"string")), (p!"enum", (.list [(.str p!"online"), (.str p!"maintenance"), (.str p!"cancel_only"), (.str p!"limit_only"), (.str p!"post_only")]))])), (p!"subscribe", (.dict [(p!"type", (.str p!"object")), (p!"properties", (.dict [(p!"event", (.dict [(p!"type", (.str p!"string")), (p!"const", (.str p!"subscribe"))])), (p!"reqid", (.dict [(p!"$ref", (.str p!"#/components/schemas/reqid"))])), (p!"pair", (.dict [(p!"$ref", (.str p!"#/components/schemas/pair"))])), (p!"subscription", (.dict [(p!"type", (.str p!"object")), (p!"properties", (.dict [(p!"depth", (.dict [(p!"$ref", (.str p!"#/components/schemas/depth"))])), (p!"interval", (.dict [(p!"$ref", (.str p!"#/components/schemas/interval"))])), (p!"name", (.dict [(p!"$ref", (.str p!"#/components/schemas/name"))])), (p!"ratecounter", (.dict [(p!"$ref", (.str p!"#/components/schemas/ratecounter"))])), (p!"snapshot", (.dict [(p!"$ref", (.str p!"#/components/schemas/snapshot"))])), (p!"token", (.dict [(p!"$ref", (.str p!"#/components/schemas/token"))]))])), (p!"required", (.list [(.str p!"name")]))]))])), (p!"required", (.list [(.str p!"event")]))])), (p!"unsubscribe", (.dict [(p!"type", (.str p!"object")), (p!"properties", (.dict [(p!"event", (.dict [(p!"type", (.str p!"string")), (p!"const", (.str p!"unsubscribe"))])), (p!"reqid", (.dict [(p!"$ref", (.str p!"#/components/schemas/reqid"))])), (p!"pair", (.dict [(p!"$ref", (.str p!"#/components/schemas/pair"))])), (p!"subscription", (.dict [(p!"type", (.str p!"object")), (p!"properties", (.dict [(p!"depth", (.dict [(p!"$ref", (.str p!"#/components/schemas/depth"))])), (p!"interval", (.dict [(p!"$ref", (.str p!"#/components/schemas/interval"))])), (p!"name", (.dict [(p!"$ref", (.str p!"#/components/schemas/name"))])), (p!"token", (.dict [(p!"$ref", (.str p!"#/components/schemas/token"))]))])), (p!"required", (.list [(.str p!"name")]))]))])), (p!"required", (.list [(.str p!"event")]))])), (p!"subscriptionStatus", (.dict [(p!"type", (.str p!"object")), (p!"oneOf", (.list [(.dict [(p!"$ref", (.str p!"#/components/schemas/subscriptionStatusError"))]), (.dict [(p!"$ref", (.str p!"#/components/schemas/subscriptionStatusSuccess"))])]))])), (p!"subscriptionStatusError", (.dict [(p!"allOf", (.list [(.dict [(p!"properties", (.dict [(p!"errorMessage", (.dict [(p!"type", (.str p!"string"))]))])), (p!"required", (.list [(.str p!"errorMessage")]))]), (.dict [(p!"$ref", (.str p!"#/components/schemas/subscriptionStatusCommon"))])]))])), (p!"subscriptionStatusSuccess", (.dict [(p!"allOf", (.list [(.dict [(p!"properties", (.dict [(p!"channelID", (.dict [(p!"type", (.str p!"integer")), (p!"description", (.str p!"ChannelID on successful subscription, applicable to public messages only."))])), (p!"channelName", (.dict [(p!"type", (.str p!"string")), (p!"description", (.str p!"Channel Name on successful subscription. For payloads 'ohlc' and 'book', respective interval or depth will be added as suffix."))]))])), (p!"required", (.list [(.str p!"channelID"), (.str p!"channelName")]))]), (.dict [(p!"$ref", (.str p!"#/components/schemas/subscriptionStatusCommon"))])]))])), (p!"subscriptionStatusCommon", (.dict [(p!"type", (.str p!"object")), (p!"required", (.list [(.str p!"event")])), (p!"properties", (.dict [(p!"event", (.dict [(p!"type", (.str p!"string")), (p!"const", (.str p!"subscriptionStatus"))])), (p!"reqid", (.dict [(p!"$ref", (.str p!"#/components/schemas/reqid"))])), (p!"pair", (.dict [(p!"$ref", (.str p!"#/components/schemas/pair"))])), (p!"status", (.dict [(p!"$ref", (.str p!"#/components/schemas/status"))])), (p!"subscription", (.dict [(p!"required", (.list [(.str p!"name")])), (p!"type", (.str p!"object")), (p!"properties", (.dict [(p!"depth", (.dict [(p!"$ref", (.str p!"#/components/schemas/depth"))])), (p!"interval", (.dict [(p!"$ref", (.str p!"#/components/schemas/interval"))])), (p!"maxratecount", (.dict [(p!"$ref", (.str p!"#/components/schemas/maxratecount"))])), (p!"name", (.dict [(p!"$ref", (.str p!"#/components/schemas/name"))])), (p!"token", (.dict [(p!"$ref", (.str p!"#/components/schemas/token"))]))]))]))]))])), (p!"interval", (.dict [(p!"type", (.str p!"integer")), (p!"description", (.str p!"Time interval associated with ohlc subscription in minutes.")), (p!"default", (.int (1))), (p!"enum", (.list [(.int (1)), (.int (5)), (.int (15)), (.int (30)), (.int (60)), (.int (240)), (.int (1440)), (.int (10080)), (.int (21600))]))])), (p!"name", (.dict [(p!"type", (.str p!"string")), (p!"description", (.str p!"The name of the channel you subscribe too.")), (p!"enum", (.list [(.str p!"book"), (.str p!"ohlc"), (.str p!"openOrders"), (.str p!"ownTrades"), (.str p!"spread"), (.str p!"ticker"), (.str p!"trade")]))])), (p!"token", (.dict [(p!"type", (.str p!"string")), (p!"description", (.str p!"base64-encoded authentication token for private-data endpoints."))])), (p!"depth", (.dict [(p!"type", (.str p!"integer")), (p!"default", (.int (10))), (p!"enum", (.list [(.int (10)), (.int (25)), (.int (100)), (.int (500)), (.int (1000))])), (p!"description", (.str p!"Depth associated with book subscription in number of levels each side."))])), (p!"maxratecount", (.dict [(p!"type", (.str p!"integer")), (p!"description", (.str p!"Max rate-limit budget. Compare to the ratecounter field in the openOrders updates to check whether you are approaching the rate limit."))])), (p!"ratecounter", (.dict [(p!"type", (.str p!"boolean")), (p!"default", (.bool false)), (p!"description", (.str p!"Whether to send rate-limit counter in updates (supported only for openOrders subscriptions)"))])), (p!"snapshot", (.dict [(p!"type", (.str p!"boolean")), (p!"default", (.bool true)), (p!"description", (.str p!"Whether to send historical feed data snapshot upon subscription (supported only for ownTrades subscriptions)"))])), (p!"reqid", (.dict [(p!"type", (.str p!"integer")), (p!"description", (.str p!"client originated ID reflected in response message."))])), (p!"pair", (.dict [(p!"type", (.str p!"array")), (p!"description", (.str p!"Array of currency pairs.")), (p!"items", (.dict [(p!"type", (.str p!"string")), (p!"description", (.str p!"Format of each pair is \"A/B\", where A and B are ISO 4217-A3 for standardized assets and popular unique symbol if not standardized.")), (p!"pattern", (.str p!"[A-Z\\s]+\\/[A-Z\\s]+"))]))]))]))]))])) : Option Unit).isSome = true := by decide +kernel

/-- `yaml_specs/valid/single_file/mercure-asyncapi.yml`, tests/test_base_validation.py:27 -/
example : (do
  discard (load .AsyncAPI3 (.dict [(p!"asyncapi", (.str p!"3.0.0")), (p!"info", (.dict [(p!"title", (.str p!"Mercure Hub Example")), (p!"version", (.str p!"1.0.0")), (p!"description", (.str p!"This example demonstrates how to define a Mercure hub."))])), (p!"defaultContentType", (.str p!"application/ld+json")), (p!"servers", (.dict [(p!"production", (.dict [(p!"host", (.str p!"demo.mercure.rocks")), (p!"pathname", (.str p!"/.well-known/mercure")), (p!"protocol", (.str p!"mercure"))]))])), (p!"channels", (.dict [(p!"books", (.dict [(p!"address", (.str p!"https://example.com/books/{id}")), (p!"messages", (.dict [(p!"book", (.dict [(p!"$ref", (.str p!"#/components/messages/book"))]))])), (p!"description", (.str p!"Every time a resource of type `http://schema.org/Book` is created or modified, a JSON-LD representation of the new version of this resource must be pushed in this Mercure topic.")), (p!"parameters", (.dict [(p!"id", (.dict [(p!"description", (.str p!"ID of the book"))]))]))]))])), (p!"operations", (.dict [(p!"ReceiveBooksInfo", (.dict [(p!"action", (.str p!"receive")), (p!"channel", (.dict [(p!"$ref", (.str p!"#/channels/books"))])), (p!"messages", (.list [(.dict [(p!"$ref", (.str p!"#/channels/books/messages/book"))])]))])), (p!"SendBooksInfo", (.dict [(p!"action", (.str p!"send")), (p!"channel", (.dict [(p!"$ref", (.str p!"#/channels/books"))])), (p!"messages", (.list [(.dict [(p!"$ref", (.str p!"#/channels/books/messages/book"))])]))]))])), (p!"components", (.dict [(p!"messages", (.dict [(p!"book", (.dict [(p!"summary", (.str p!"The content of a book resource.")), (p!"externalDocs", (.dict [(p!"url", (.str p!"https://schema.org/Book"))])), (p!"payload", (.dict [(p!"type", (.str p!"object")), (p!"properties", (.dict [(p!"@id", (.dict [(p!"type", (.str p!"string")), (p!"format", (.str p!"iri-reference"))])), (p!"@type", (.dict [(p!"type", (.str p!"string")), (p!"format", (.str p!"iri-reference"))])), (p!"name", (.dict [(p!"type", (.str p!"string"))])), (p!"isbn", (.dict [(p!"type", (.str p!"string"))])), (p!"abstract", (.dict [(p!"type", (.str p!"string"))]))]))]))]))]))]))])) : Option Unit).isSome = true := by decide +kernel

/-- `yaml_specs/valid/single_file/not-asyncapi.yml`, tests/test_base_validation.py:27 -/
example : (do
  discard (load .AsyncAPI3 (.dict [(p!"asyncapi", (.str p!"3.0.0")), (p!"info", (.dict [(p!"title", (.str p!"Not example")), (p!"version", (.str p!"1.0.0"))])), (p!"channels", (.dict [(p!"test", (.dict [(p!"address", (.str p!"test")), (p!"messages", (.dict [(p!"testMessages", (.dict [(p!"$ref", (.str p!"#/components/messages/testMessages"))]))]))]))])), (p!"operations", (.dict [(p!"onTestMsg", (.dict [(p!"action", (.str p!"receive")), (p!"channel", (.dict [(p!"$ref", (.str p!"#/channels/test"))])), (p!"messages", (.list [(.dict [(p!"$ref", (.str p!"#/channels/test/messages/testMessages"))])]))]))])), (p!"components", (.dict [(p!"messages", (.dict [(p!"testMessages", (.dict [(p!"payload", (.dict [(p!"$ref", (.str p!"#/components/schemas/testSchema"))]))]))])), (p!"schemas", (.dict [(p!"testSchema", (.dict [(p!"type", (.str p!"object")), (p!"properties", (.dict [(p!"key", (.dict [(p!"not", (.dict [(p!"type", (.str p!"integer"))]))]))]))]))]))]))])) : Option Unit).isSome = true := by decide +kernel

/-- `yaml_specs/valid/single_file/oneof-asyncapi.yml`, tests/test_base_validation.py:27 -/
example : (do
  discard (load .AsyncAPI3 (.dict [(p!"asyncapi", (.str p!"3.0.0")), (p!"info", (.dict [(p!"title", (.str p!"OneOf example")), (p!"version", (.str p!"1.0.0"))])), (p!"channels", (.dict [(p!"test", (.dict [(p!"address", (.str p!"test")), (p!"messages", (.dict [(p!"testMessages", (.dict [(p!"$ref", (.str p!"#/components/messages/testMessages"))]))]))])), (p!"test2", (.dict [(p!"address", (.str p!"test2")), (p!"messages", (.dict [(p!"objectWithKey", (.dict [(p!"payload", (.dict [(p!"$ref", (.str p!"#/components/schemas/objectWithKey"))]))])), (p!"objectWithKey2", (.dict [(p!"payload", (.dict [(p!"$ref", (.str p!"#/components/schemas/objectWithKey2"))]))]))]))]))])), (p!"operations", (.dict [(p!"onTestMsg", (.dict [(p!"action", (.str p!"receive")), (p!"channel", (.dict [(p!"$ref", (.str p!"#/channels/test"))])), (p!"messages", (.list [(.dict [(p!"$ref", (.str p!"#/channels/test/messages/testMessages"))])]))])), (p!"sendTest", (.dict [(p!"action", (.str p!"send")), (p!"channel", (.dict [(p!"$ref", (.str p!"#/channels/test2"))])), (p!"messages", (.list [(.dict [(p!"$ref", (.str p!"#/channels/test2/messages/objectWithKey"))]), (.dict [(p!"$ref", (.str p!"#/channels/test2/messages/objectWithKey2"))])]))]))])), (p!"components", (.dict [(p!"messages", (.dict [(p!"testMessages", (.dict [(p!"payload", (.dict [(p!"oneOf", (.list [(.dict [(p!"$ref", (.str p!"#/components/schemas/objectWithKey"))]), (.dict [(p!"$ref", (.str p!"#/components/schemas/objectWithKey2"))])]))]))])), (p!"testMessage1", (.dict [(p!"payload", (.dict [(p!"$ref", (.str p!"#/components/schemas/objectWithKey"))]))])), (p!"testMessage2", (.dict [(p!"payload", (.dict [(p!"$ref", (.str p!"#/components/schemas/objectWithKey2"))]))]))])), (p!"schemas", (.dict [(p!"objectWithKey", (.dict [(p!"type", (.str p!"object")), (p!"properties", (.dict [(p!"key", (.dict [(p!"type", (.str p!"string"))]))]))])), (p!"objectWithKey2", (.dict [(p!"type", (.str p!"object")), (p!"properties", (.dict [(p!"key2", (.dict [(p!"type", (.str p!"string"))]))]))]))]))]))])) : Option Unit).isSome = true := by decide +kernel

/-- `yaml_specs/valid/single_file/operation-security-asyncapi.yml`, tests/test_base_validation.py:27 -/
example : (do
  discard (load .AsyncAPI3 (.dict [(p!"asyncapi", (.str p!"3.0.0")), (p!"info", (.dict [(p!"title", (.str p!"Notifications")), (p!"version", (.str p!"1.0.0")), (p!"description", (.str p!"This contract defines HTTP Push notification for  application authorization revocation topic"))])), (p!"channels", (.dict [(p!"authRevoke", (.dict [(p!"address", (.str p!"AUTHORIZATION_REVOCATION")), (p!"messages", (.dict [(p!"message", (.dict [(p!"$ref", (.str p!"#/components/messages/message"))]))]))]))])), (p!"operations", (.dict [(p!"sendAuthRevoke", (.dict [(p!"action", (.str p!"send")), (p!"channel", (.dict [(p!"$ref", (.str p!"#/channels/authRevoke"))])), (p!"security", (.list [(.dict [(p!"type", (.str p!"oauth2")), (p!"description", (.str p!"The oauth security descriptions")), (p!"flows", (.dict [(p!"clientCredentials", (.dict [(p!"tokenUrl", (.str p!"https://example.com/api/oauth/dialog")), (p!"availableScopes", (.dict [(p!"subscribe:auth_revocations", (.str p!"Scope required for authorization revocation topic"))]))]))])), (p!"scopes", (.list [(.str p!"subscribe:auth_revocations")]))])])), (p!"bindings", (.dict [(p!"http", (.dict [(p!"method", (.str p!"POST"))]))])), (p!"messages", (.list [(.dict [(p!"$ref", (.str p!"#/channels/authRevoke/messages/message"))])]))]))])), (p!"components", (.dict [(p!"messages", (.dict [(p!"message", (.dict [(p!"headers", (.dict [(p!"type", (.str p!"object")), (p!"properties", (.dict [(p!"X-SIGNATURE", (.dict [(p!"description", (.str p!"ECC message signature")), (p!"type", (.str p!"string"))])), (p!"Content-Type", (.dict [(p!"type", (.str p!"string")), (p!"enum", (.list [(.str p!"application/json")]))]))]))])), (p!"payload", (.dict [(p!"type", (.str p!"object")), (p!"properties", (.dict [(p!"metadata", (.dict [(p!"$ref", (.str p!"#/components/schemas/MetaData"))])), (p!"notification", (.dict [(p!"$ref", (.str p!"#/components/schemas/Notification"))]))]))]))]))])), (p!"schemas", (.dict [(p!"MetaData", (.dict [(p!"type", (.str p!"object")), (p!"properties", (.dict [(p!"topic", (.dict [(p!"type", (.str p!"string")), (p!"description", (.str p!"Topic subscribed to."))])), (p!"schemaVersion", (.dict [(p!"type", (.str p!"string")), (p!"description", (.str p!"The schema for this topic."))])), (p!"deprecated", (.dict [(p!"type", (.str p!"boolean")), (p!"description", (.str p!"If this is a deprecated schema or topic.")), (p!"default", (.str p!"false"))]))]))])), (p!"Notification", (.dict [(p!"type", (.str p!"object")), (p!"properties", (.dict [(p!"notificationId", (.dict [(p!"type", (.str p!"string")), (p!"description", (.str p!"The notification Id."))])), (p!"eventDate", (.dict [(p!"type", (.str p!"string")), (p!"description", (.str p!"The event date associated with this notification in UTC."))])), (p!"publishDate", (.dict [(p!"type", (.str p!"string")), (p!"description", (.str p!"The message publish date in UTC."))])), (p!"publishAttemptCount", (.dict [(p!"type", (.str p!"integer")), (p!"description", (.str p!"The number of attempts made to publish this message."))])), (p!"data", (.dict [(p!"$ref", (.str p!"#/components/schemas/AuthorizationRevocationData"))]))]))])), (p!"AuthorizationRevocationData", (.dict [(p!"type", (.str p!"object")), (p!"description", (.str p!"The Authorization Revocation payload.")), (p!"properties", (.dict [(p!"username", (.dict [(p!"type", (.str p!"string")), (p!"description", (.str p!"The username for the user."))])), (p!"userId", (.dict [(p!"type", (.str p!"string")), (p!"description", (.str p!"The immutable public userId for the user"))])), (p!"eiasToken", (.dict [(p!"type", (.str p!"string")), (p!"description", (.str p!"The legacy eiasToken specific to the user"))])), (p!"revokeReason", (.dict [(p!"type", (.str p!"string")), (p!"enum", (.list [(.str p!"REVOKED_BY_APP"), (.str p!"REVOKED_BY_USER"), (.str p!"REVOKED_BY_ADMIN"), (.str p!"PASSWORD_CHANGE")])), (p!"description", (.str p!"The reason for authorization revocation"))])), (p!"revocationDate", (.dict [(p!"type", (.str p!"string")), (p!"description", (.str p!"Date and time when the authorization was revoked"))]))]))]))])), (p!"securitySchemes", (.dict [(p!"petstore_auth", (.dict [(p!"type", (.str p!"oauth2")), (p!"description", (.str p!"The oauth security descriptions")), (p!"flows", (.dict [(p!"clientCredentials", (.dict [(p!"tokenUrl", (.str p!"https://example.com/api/oauth/dialog")), (p!"availableScopes", (.dict [(p!"subscribe:auth_revocations", (.str p!"Scope required for authorization revocation topic"))]))]))]))]))]))]))])) : Option Unit).isSome = true := by decide +kernel

/-- `yaml_specs/valid/single_file/rpc-client-asyncapi.yml`, tests/test_base_validation.py:27 -/
example : (do
  discard (load .AsyncAPI3 (.dict [(p!"asyncapi", (.str p!"3.0.0")), (p!"id", (.str p!"urn:example:rpcclient")), (p!"info", (.dict [(p!"title", (.str p!"RPC Client Example")), (p!"version", (.str p!"1.0.0")), (p!"description", (.str p!"This example demonstrates how to define an RPC client."))])), (p!"defaultContentType", (.str p!"application/json")), (p!"servers", (.dict [(p!"production", (.dict [(p!"host", (.str p!"rabbitmq.example.org")), (p!"protocol", (.str p!"amqp"))]))])), (p!"channels", (.dict [(p!"queue", (.dict [(p!"address", (.str p!"{queue}")), (p!"messages", (.dict [(p!"receiveSumResult", (.dict [(p!"correlationId", (.dict [(p!"location", (.str p!"$message.header#/correlation_id"))])), (p!"payload", (.dict [(p!"type", (.str p!"object")), (p!"properties", (.dict [(p!"result", (.dict [(p!"type", (.str p!"number")), (p!"examples", (.list [(.int (7))]))]))]))]))]))])), (p!"parameters", (.dict [(p!"queue", (.dict []))])), (p!"bindings", (.dict [(p!"amqp", (.dict [(p!"is", (.str p!"queue")), (p!"queue", (.dict [(p!"exclusive", (.bool true))]))]))]))])), (p!"rpc_queue", (.dict [(p!"address", (.str p!"rpc_queue")), (p!"messages", (.dict [(p!"requestSum", (.dict [(p!"correlationId", (.dict [(p!"location", (.str p!"$message.header#/correlation_id"))])), (p!"payload", (.dict [(p!"type", (.str p!"object")), (p!"properties", (.dict [(p!"numbers", (.dict [(p!"type", (.str p!"array")), (p!"items", (.dict [(p!"type", (.str p!"number"))])), (p!"examples", (.list [(.list [(.int (4)), (.int (3))])]))]))]))]))]))])), (p!"bindings", (.dict [(p!"amqp", (.dict [(p!"is", (.str p!"queue")), (p!"queue", (.dict [(p!"durable", (.bool false))]))]))]))]))])), (p!"operations", (.dict [(p!"receiveSumResult", (.dict [(p!"action", (.str p!"receive")), (p!"channel", (.dict [(p!"$ref", (.str p!"#/channels/queue"))])), (p!"bindings", (.dict [(p!"amqp", (.dict [(p!"ack", (.bool false))]))])), (p!"messages", (.list [(.dict [(p!"$ref", (.str p!"#/channels/queue/messages/receiveSumResult"))])]))])), (p!"requestSum", (.dict [(p!"action", (.str p!"send")), (p!"channel", (.dict [(p!"$ref", (.str p!"#/channels/rpc_queue"))])), (p!"bindings", (.dict [(p!"amqp", (.dict [(p!"ack", (.bool true))]))])), (p!"messages", (.list [(.dict [(p!"$ref", (.str p!"#/channels/rpc_queue/messages/requestSum"))])]))]))]))])) : Option Unit).isSome = true := by decide +kernel

/-- `yaml_specs/valid/single_file/rpc-server-asyncapi.yml`, tests/test_base_validation.py:27 -/
example : (do
  discard (load .AsyncAPI3 (.dict [(p!"asyncapi", (.str p!"3.0.0")), (p!"id", (.str p!"urn:example:rpcserver")), (p!"info", (.dict [(p!"title", (.str p!"RPC Server Example")), (p!"version", (.str p!"1.0.0")), (p!"description", (.str p!"This example demonstrates how to define an RPC server."))])), (p!"defaultContentType", (.str p!"application/json")), (p!"servers", (.dict [(p!"production", (.dict [(p!"host", (.str p!"rabbitmq.example.org")), (p!"protocol", (.str p!"amqp"))]))])), (p!"channels", (.dict [(p!"queue", (.dict [(p!"address", (.str p!"{queue}")), (p!"messages", (.dict [(p!"sendSumResult", (.dict [(p!"correlationId", (.dict [(p!"location", (.str p!"$message.header#/correlation_id"))])), (p!"payload", (.dict [(p!"type", (.str p!"object")), (p!"properties", (.dict [(p!"result", (.dict [(p!"type", (.str p!"number")), (p!"examples", (.list [(.int (7))]))]))]))]))]))])), (p!"parameters", (.dict [(p!"queue", (.dict []))])), (p!"bindings", (.dict [(p!"amqp", (.dict [(p!"is", (.str p!"queue")), (p!"queue", (.dict [(p!"exclusive", (.bool true))]))]))]))])), (p!"rpc_queue", (.dict [(p!"address", (.str p!"rpc_queue")), (p!"messages", (.dict [(p!"sum", (.dict [(p!"correlationId", (.dict [(p!"location", (.str p!"$message.header#/correlation_id"))])), (p!"payload", (.dict [(p!"type", (.str p!"object")), (p!"properties", (.dict [(p!"numbers", (.dict [(p!"type", (.str p!"array")), (p!"items", (.dict [(p!"type", (.str p!"number"))])), (p!"examples", (.list [(.list [(.int (4)), (.int (3))])]))]))]))]))]))])), (p!"bindings", (.dict [(p!"amqp", (.dict [(p!"is", (.str p!"queue")), (p!"queue", (.dict [(p!"durable", (.bool false))]))]))]))]))])), (p!"operations", (.dict [(p!"sendSumResult", (.dict [(p!"action", (.str p!"send")), (p!"channel", (.dict [(p!"$ref", (.str p!"#/channels/queue"))])), (p!"bindings", (.dict [(p!"amqp", (.dict [(p!"ack", (.bool true))]))])), (p!"messages", (.list [(.dict [(p!"$ref", (.str p!"#/channels/queue/messages/sendSumResult"))])]))])), (p!"sum", (.dict [(p!"action", (.str p!"receive")), (p!"channel", (.dict [(p!"$ref", (.str p!"#/channels/rpc_queue"))])), (p!"messages", (.list [(.dict [(p!"$ref", (.str p!"#/channels/rpc_queue/messages/sum"))])]))]))]))])) : Option Unit).isSome = true := by decide +kernel

/-- `yaml_specs/valid/single_file/simple-asyncapi.yml`, tests/test_base_validation.py:27 -/
example : (do
  discard (load .AsyncAPI3 (.dict [(p!"asyncapi", (.str p!"3.0.0")), (p!"info", (.dict [(p!"title", (.str p!"Account Service")), (p!"version", (.str p!"1.0.0")), (p!"description", (.str p!"This service is in charge of processing user signups"))])), (p!"channels", (.dict [(p!"userSignedup", (.dict [(p!"address", (.str p!"user/signedup")), (p!"messages", (.dict [(p!"UserSignedUp", (.dict [(p!"$ref", (.str p!"#/components/messages/UserSignedUp"))]))]))]))])), (p!"operations", (.dict [(p!"sendUserSignedup", (.dict [(p!"action", (.str p!"send")), (p!"channel", (.dict [(p!"$ref", (.str p!"#/channels/userSignedup"))])), (p!"messages", (.list [(.dict [(p!"$ref", (.str p!"#/channels/userSignedup/messages/UserSignedUp"))])]))]))])), (p!"components", (.dict [(p!"messages", (.dict [(p!"UserSignedUp", (.dict [(p!"payload", (.dict [(p!"type", (.str p!"object")), (p!"properties", (.dict [(p!"displayName", (.dict [(p!"type", (.str p!"string")), (p!"description", (.str p!"Name of the user"))])), (p!"email", (.dict [(p!"type", (.str p!"string")), (p!"format", (.str p!"email")), (p!"description", (.str p!"Email of the user"))]))]))]))]))]))]))])) : Option Unit).isSome = true := by decide +kernel

/-- `yaml_specs/valid/single_file/slack-rtm-asyncapi.yml`, tests/test_base_validation.py:27 -/
example : (do
  discard (load .AsyncAPI3 (.dict [(p!"asyncapi", (.str p!"3.0.0")), (p!"id", (.str p!"wss://wss-primary.slack.com/websocket")), (p!"info", (.dict [(p!"title", (.str p!"Slack Real Time Messaging API")), (p!"version", (.str p!"1.0.0"))])), (p!"servers", (.dict [(p!"production", (.dict [(p!"host", (.str p!"slack.com")), (p!"pathname", (.str p!"/api/rtm.connect")), (p!"protocol", (.str p!"https")), (p!"protocolVersion", (.str p!"1.1")), (p!"security", (.list [(.dict [(p!"$ref", (.str p!"#/components/securitySchemes/token"))])]))]))])), (p!"channels", (.dict [(p!"root", (.dict [(p!"address", (.str p!"/")), (p!"messages", (.dict [(p!"outgoingMessage", (.dict [(p!"$ref", (.str p!"#/components/messages/outgoingMessage"))])), (p!"hello", (.dict [(p!"$ref", (.str p!"#/components/messages/hello"))])), (p!"connectionError", (.dict [(p!"$ref", (.str p!"#/components/messages/connectionError"))])), (p!"accountsChanged", (.dict [(p!"$ref", (.str p!"#/components/messages/accountsChanged"))])), (p!"botAdded", (.dict [(p!"$ref", (.str p!"#/components/messages/botAdded"))])), (p!"botChanged", (.dict [(p!"$ref", (.str p!"#/components/messages/botChanged"))])), (p!"channelArchive", (.dict [(p!"$ref", (.str p!"#/components/messages/channelArchive"))])), (p!"channelCreated", (.dict [(p!"$ref", (.str p!"#/components/messages/channelCreated"))])), (p!"channelDeleted", (.dict [(p!"$ref", (.str p!"#/components/messages/channelDeleted"))])), (p!"channelHistoryChanged", (.dict [(p!"$ref", (.str p!"#/components/messages/channelHistoryChanged"))])), (p!"channelJoined", (.dict [(p!"$ref", (.str p!"#/components/messages/channelJoined"))])), (p!"channelLeft", (.dict [(p!"$ref", (.str p!"#/components/messages/channelLeft"))])), (p!"channelMarked", (.dict [(p!"$ref", (.str p!"#/components/messages/channelMarked"))])), (p!"channelRename", (.dict [(p!"$ref", (.str p!"#/components/messages/channelRename"))])), (p!"channelUnarchive", (.dict [(p!"$ref", (.str p!"#/components/messages/channelUnarchive"))])), (p!"commandsChanged", (.dict [(p!"$ref", (.str p!"#/components/messages/commandsChanged"))])), (p!"dndUpdated", (.dict [(p!"$ref", (.str p!"#/components/messages/dndUpdated"))])), (p!"dndUpdatedUser", (.dict [(p!"$ref", (.str p!"#/components/messages/dndUpdatedUser"))])), (p!"emailDomainChanged", (.dict [(p!"$ref", (.str p!"#/components/messages/emailDomainChanged"))])), (p!"emojiRemoved", (.dict [(p!"$ref", (.str p!"#/components/messages/emojiRemoved"))])), (p!"emojiAdded", (.dict [(p!"$ref", (.str p!"#/components/messages/emojiAdded"))])), (p!"fileChange", (.dict [(p!"$ref", (.str p!"#/components/messages/fileChange"))])), (p!"fileCommentAdded", (.dict [(p!"$ref", (.str p!"#/components/messages/fileCommentAdded"))])), (p!"fileCommentDeleted", (.dict [(p!"$ref", (.str p!"#/components/messages/fileCommentDeleted"))])), (p!"fileCommentEdited", (.dict [(p!"$ref", (.str p!"#/components/messages/fileCommentEdited"))])), (p!"fileCreated", (.dict [(p!"$ref", (.str p!"#/components/messages/fileCreated"))])), (p!"fileDeleted", (.dict [(p!"$ref", (.str p!"#/components/messages/fileDeleted"))])), (p!"filePublic", (.dict [(p!"$ref", (.str p!"#/components/messages/filePublic"))])), (p!"fileShared", (.dict [(p!"$ref", (.str p!"#/components/messages/fileShared"))])), (p!"fileUnshared", (.dict [(p!"$ref", (.str p!"#/components/messages/fileUnshared"))])), (p!"goodbye", (.dict [(p!"$ref", (.str p!"#/components/messages/goodbye"))])), (p!"groupArchive", (.dict [(p!"$ref", (.str p!"#/components/messages/groupArchive"))])), (p!"groupClose", (.dict [(p!"$ref", (.str p!"#/components/messages/groupClose"))])), (p!"groupHistoryChanged", (.dict [(p!"$ref", (.str p!"#/components/messages/groupHistoryChanged"))])), (p!"groupJoined", (.dict [(p!"$ref", (.str p!"#/components/messages/groupJoined"))])), (p!"groupLeft", (.dict [(p!"$ref", (.str p!"#/components/messages/groupLeft"))])), (p!"groupMarked", (.dict [(p!"$ref", (.str p!"#/components/messages/groupMarked"))])), (p!"groupOpen", (.dict [(p!"$ref", (.str p!"#/components/messages/groupOpen"))])), (p!"groupRename", (.dict [(p!"$ref", (.str p!"#/components/messages/groupRename"))])), (p!"groupUnarchive", (.dict [(p!"$ref", (.str p!"#/components/messages/groupUnarchive"))])), (p!"imClose", (.dict [(p!"$ref", (.str p!"#/components/messages/imClose"))])), (p!"imCreated", (.dict [(p!"$ref", (.str p!"#/components/messages/imCreated"))])), (p!"imMarked", (.dict [(p!"$ref", (.str p!"#/components/messages/imMarked"))])), (p!"imOpen", (.dict [(p!"$ref", (.str p!"#/components/messages/imOpen"))])), (p!"manualPresenceChange", (.dict [(p!"$ref", (.str p!"#/components/messages/manualPresenceChange"))])), (p!"memberJoinedChannel", (.dict [(p!"$ref", (.str p!"#/components/messages/memberJoinedChannel"))])), (p!"message", (.dict [(p!"$ref", (.str p!"#/components/messages/message"))]))]))]))])), (p!"operations", (.dict [(p!"receiveOutgoingMessage", (.dict [(p!"action", (.str p!"receive")), (p!"channel", (.dict [(p!"$ref", (.str p!"#/channels/root"))])), (p!"messages", (.list [(.dict [(p!"$ref", (.str p!"#/channels/root/messages/outgoingMessage"))])]))])), (p!"sendMessages", (.dict [(p!"action", (.str p!"send")), (p!"channel", (.dict [(p!"$ref", (.str p!"#/channels/root"))])), (p!"messages", (.list [(.dict [(p!"$ref", (.str p!"#/channels/root/messages/hello"))]), (.dict [(p!"$ref", (.str p!"#/channels/root/messages/connectionError"))]), (.dict [(p!"$ref", (.str p!"#/channels/root/messages/accountsChanged"))]), (.dict [(p!"$ref", (.str p!"#/channels/root/messages/botAdded"))]), (.dict [(p!"$ref", (.str p!"#/channels/root/messages/botChanged"))]), (.dict [(p!"$ref", (.str p!"#/channels/root/messages/channelArchive"))]), (.dict [(p!"$ref", (.str p!"#/channels/root/messages/channelCreated"))]), (.dict [(p!"$ref", (.str p!"#/channels/root/messages/channelDeleted"))]), (.dict [(p!"$ref", (.str p!"#/channels/root/messages/channelHistoryChanged"))]), (.dict [(p!"$ref", (.str p!"#/channels/root/messages/channelJoined"))]), (.dict [(p!"$ref", (.str p!"#/channels/root/messages/channelLeft"))]), (.dict [(p!"$ref", (.str p!"#/channels/root/messages/channelMarked"))]), (.dict [(p!"$ref", (.str p!"#/channels/root/messages/channelRename"))]), (.dict [(p!"$ref", (.str p!"#/channels/root/messages/channelUnarchive"))]), (.dict [(p!"$ref", (.str p!"#/channels/root/messages/commandsChanged"))]), (.dict [(p!"$ref", (.str p!"#/channels/root/messages/dndUpdated"))]), (.dict [(p!"$ref", (.str p!"#/channels/root/messages/dndUpdatedUser"))]), (.dict [(p!"$ref", (.str p!"#/channels/root/messages/emailDomainChanged"))]), (.dict [(p!"$ref", (.str p!"#/channels/root/messages/emojiRemoved"))]), (.dict [(p!"$ref", (.str p!"#/channels/root/messages/emojiAdded"))]), (.dict [(p!"$ref", (.str p!"#/channels/root/messages/fileChange"))]), (.dict [(p!"$ref", (.str p!"#/channels/root/messages/fileCommentAdded"))]), (.dict [(p!"$ref", (.str p!"#/channels/root/messages/fileCommentDeleted"))]), (.dict [(p!"$ref", (.str p!"#/channels/root/messages/fileCommentEdited"))]), (.dict [(p!"$ref", (.str p!"#/channels/root/messages/fileCreated"))]), (.dict [(p!"$ref", (.str p!"#/channels/root/messages/fileDeleted"))]), (.dict [(p!"$ref", (.str p!"#/channels/root/messages/filePublic"))]), (.dict [(p!"$ref", (.str p!"#/channels/root/messages/fileShared"))]), (.dict [(p!"$ref", (.str p!"#/channels/root/messages/fileUnshared"))]), (.dict [(p!"$ref", (.str p!"#/channels/root/messages/goodbye"))]), (.dict [(p!"$ref", (.str p!"#/channels/root/messages/groupArchive"))]), (.dict [(p!"$ref", (.str p!"#/channels/root/messages/groupClose"))]), (.dict [(p!"$ref", (.str p!"#/channels/root/messages/groupHistoryChanged"))]), (.dict [(p!"$ref", (.str p!"#/channels/root/messages/groupJoined"))]), (.dict [(p!"$ref", (.str p!"#/channels/root/messages/groupLeft"))]), (.dict [(p!"$ref", (.str p!"#/channels/root/messages/groupMarked"))]), (.dict [(p!"$ref", (.str p!"#/channels/root/messages/groupOpen"))]), (.dict [(p!"$ref", (.str p!"#/channels/root/messages/groupRename"))]), (.dict [(p!"$ref", (.str p!"#/channels/root/messages/groupUnarchive"))]), (.dict [(p!"$ref", (.str p!"#/channels/root/messages/imClose"))]), (.dict [(p!"$ref", (.str p!"#/channels/root/messages/imCreated"))]), (.dict [(p!"$ref", (.str p!"#/channels/root/messages/imMarked"))]), (.dict [(p!"$ref", (.str p!"#/channels/root/messages/imOpen"))]), (.dict [(p!"$ref", (.str p!"#/channels/root/messages/manualPresenceChange"))]), (.dict [(p!"$ref", (.str p!"#/channels/root/messages/memberJoinedChannel"))]), (.dict [(p!"$ref", (.str p!"#/channels/root/messages/message"))])]))]))])), (p!"components", (.dict [(p!"securitySchemes", (.dict [(p!"token", (.dict [(p!"type", (.str p!"httpApiKey")), (p!"name", (.str p!"token")), (p!"in", (.str p!"query"))]))])), (p!"schemas", (.dict [(p!"attachment", (.dict [(p!"type", (.str p!"object")), (p!"properties", (.dict [(p!"fallback", (.dict [(p!"type", (.str p!"string"))])), (p!"color", (.dict [(p!"type", (.str p!"string"))])), (p!"pretext", (.dict [(p!"type", (.str p!"string"))])), (p!"author_name", (.dict [(p!"type", (.str p!"string"))])), (p!"author_link", (.dict [(p!"type", (.str p!"string")), (p!"format", (.str p!"uri"))])), (p!"author_icon", (.dict [(p!"type", (.str p!"string")), (p!"format", (.str p!"uri"))])), (p!"title", (.dict [(p!"type", (.str p!"string"))])), (p!"title_link", (.dict [(p!"type", (.str p!"string")), (p!"format", (.str p!"uri"))])), (p!"text", (.dict [(p!"type", (.str p!"string"))])), (p!"fields", (.dict [(p!"type", (.str p!"array")), (p!"items", (.dict [(p!"type", (.str p!"object")), (p!"properties", (.dict [(p!"title", (.dict [(p!"type", (.str p!"string"))])), (p!"value", (.dict [(p!"type", (.str p!"string"))])), (p!"short", (.dict [(p!"type", (.str p!"boolean"))]))]))]))])), (p!"image_url", (.dict [(p!"type", (.str p!"string")), (p!"format", (.str p!"uri"))])), (p!"thumb_url", (.dict [(p!"type", (.str p!"string")), (p!"format", (.str p!"uri"))])), (p!"footer", (.dict [(p!"type", (.str p!"string"))])), (p!"footer_icon", (.dict [(p!"type", (.str p!"string")), (p!"format", (.str p!"uri"))])), (p!"ts", (.dict [(p!"type", (.str p!"number"))]))]))]))])), (p!"messages", (.dict [(p!"hello", (.dict [(p!"summary", (.str p!"First event received upon connection.")), (p!"payload", (.dict [(p!"type", (.str p!"object")), (p!"properties", (.dict [(p!"type", (.dict [(p!"type", (.str p!"string")), (p!"enum", (.list [(.str p!"hello")]))]))]))]))])), (p!"connectionError", (.dict [(p!"summary", (.str p!"Event received when a connection error happens.")), (p!"payload", (.dict [(p!"type", (.str p!"object")), (p!"properties", (.dict [(p!"type", (.dict [(p!"type", (.str p!"string")), (p!"enum", (.list [(.str p!"error")]))])), (p!"error", (.dict [(p!"type", (.str p!"object")), (p!"properties", (.dict [(p!"code", (.dict [(p!"type", (.str p!"number"))])), (p!"msg", (.dict [(p!"type", (.str p!"string"))]))]))]))]))]))])), (p!"accountsChanged", (.dict [(p!"summary", (.str p!"The list of accounts a user is signed into has changed.")), (p!"payload", (.dict [(p!"type", (.str p!"object")), (p!"properties", (.dict [(p!"type", (.dict [(p!"type", (.str p!"string")), (p!"enum", (.list [(.str p!"accounts_changed")]))]))]))]))])), (p!"botAdded", (.dict [(p!"summary", (.str p!"A bot user was added.")), (p!"payload", (.dict [(p!"type", (.str p!"object")), (p!"properties", (.dict [(p!"type", (.dict [(p!"type", (.str p!"string")), (p!"enum", (.list [(.str p!"bot_added")]))])), (p!"bot", (.dict [(p!"type", (.str p!"object")), (p!"properties", (.dict [(p!"id", (.dict [(p!"type", (.str p!"string"))])), (p!"app_id", (.dict [(p!"type", (.str p!"string"))])), (p!"name", (.dict [(p!"type", (.str p!"string"))])), (p!"icons", (.dict [(p!"type", (.str p!"object")), (p!"additionalProperties", (.dict [(p!"type", (.str p!"string"))]))]))]))]))]))]))])), (p!"botChanged", (.dict [(p!"summary", (.str p!"A bot user was changed.")), (p!"payload", (.dict [(p!"type", (.str p!"object")), (p!"properties", (.dict [(p!"type", (.dict [(p!"type", (.str p!"string")), (p!"enum", (.list [(.str p!"bot_added")]))])), (p!"bot", (.dict [(p!"type", (.str p!"object")), (p!"properties", (.dict [(p!"id", (.dict [(p!"type", (.str p!"string"))])), (p!"app_id", (.dict [(p!"type", (.str p!"string"))])), (p!"name", (.dict [(p!"type", (.str p!"string"))])), (p!"icons", (.dict [(p!"type", (.str p!"object")), (p!"additionalProperties", (.dict [(p!"type", (.str p!"string"))]))]))]))]))]))]))])), (p!"channelArchive", (.dict [(p!"summary", (.str p!"A channel was archived.")), (p!"payload", (.dict [(p!"type", (.str p!"object")), (p!"properties", (.dict [(p!"type", (.dict [(p!"type", (.str p!"string")), (p!"enum", (.list [(.str p!"channel_archive")]))])), (p!"channel", (.dict [(p!"type", (.str p!"string"))])), (p!"user", (.dict [(p!"type", (.str p!"string"))]))]))]))])), (p!"channelCreated", (.dict [(p!"summary", (.str p!"A channel was created.")), (p!"payload", (.dict [(p!"type", (.str p!"object")), (p!"properties", (.dict [(p!"type", (.dict [(p!"type", (.str p!"string")), (p!"enum", (.list [(.str p!"channel_created")]))])), (p!"channel", (.dict [(p!"type", (.str p!"object")), (p!"properties", (.dict [(p!"id", (.dict [(p!"type", (.str p!"string"))])), (p!"name", (.dict [(p!"type", (.str p!"string"))])), (p!"created", (.dict [(p!"type", (.str p!"number"))])), (p!"creator", (.dict [(p!"type", (.str p!"string"))]))]))]))]))]))])), (p!"channelDeleted", (.dict [(p!"summary", (.str p!"A channel was deleted.")), (p!"payload", (.dict [(p!"type", (.str p!"object")), (p!"properties", (.dict [(p!"type", (.dict [(p!"type", (.str p!"string")), (p!"enum", (.list [(.str p!"channel_deleted")]))])), (p!"channel", (.dict [(p!"type", (.str p!"string"))]))]))]))])), (p!"channelHistoryChanged", (.dict [(p!"summary", (.str p!"Bulk updates were made to a channel's history.")), (p!"payload", (.dict [(p!"type", (.str p!"object")), (p!"properties", (.dict [(p!"type", (.dict [(p!"type", (.str p!"string")), (p!"enum", (.list [(.str p!"channel_history_changed")]))])), (p!"latest", (.dict [(p!"type", (.str p!"string"))])), (p!"ts", (.dict [(p!"type", (.str p!"string"))])), (p!"event_ts", (.dict [(p!"type", (.str p!"string"))]))]))]))])), (p!"channelJoined", (.dict [(p!"summary", (.str p!"You joined a channel.")), (p!"payload", (.dict [(p!"type", (.str p!"object")), (p!"properties", (.dict [(p!"type", (.dict [(p!"type", (.str p!"string")), (p!"enum", (.list [(.str p!"channel_joined")]))])), (p!"channel", (.dict [(p!"type", (.str p!"object")), (p!"properties", (.dict [(p!"id", (.dict [(p!"type", (.str p!"string"))])), (p!"name", (.dict [(p!"type", (.str p!"string"))])), (p!"created", (.dict [(p!"type", (.str p!"number"))])), (p!"creator", (.dict [(p!"type", (.str p!"string"))]))]))]))]))]))])), (p!"channelLeft", (.dict [(p!"summary", (.str p!"You left a channel.")), (p!"payload", (.dict [(p!"type", (.str p!"object")), (p!"properties", (.dict [(p!"type", (.dict [(p!"type", (.str p!"string")), (p!"enum", (.list [(.str p!"channel_left")]))])), (p!"channel", (.dict [(p!"type", (.str p!"string"))]))]))]))])), (p!"channelMarked", (.dict [(p!"summary", (.str p!"Your channel read marker was updated.")), (p!"payload", (.dict [(p!"type", (.str p!"object")), (p!"properties", (.dict [(p!"type", (.dict [(p!"type", (.str p!"string")), (p!"enum", (.list [(.str p!"channel_marked")]))])), (p!"channel", (.dict [(p!"type", (.str p!"string"))])), (p!"ts", (.dict [(p!"type", (.str p!"string"))]))]))]))])), (p!"channelRename", (.dict [(p!"summary", (.str p!"A channel was renamed.")), (p!"payload", (.dict [(p!"type", (.str p!"object")), (p!"properties", (.dict [(p!"type", (.dict [(p!"type", (.str p!"string")), (p!"enum", (.list [(.str p!"channel_rename")]))])), (p!"channel", (.dict [(p!"type", (.str p!"object")), (p!"properties", (.dict [(p!"id", (.dict [(p!"type", (.str p!"string"))])), (p!"name", (.dict [(p!"type", (.str p!"string"))])), (p!"created", (.dict [(p!"type", (.str p!"number"))]))]))]))]))]))])), (p!"channelUnarchive", (.dict [(p!"summary", (.str p!"A channel was unarchived.")), (p!"payload", (.dict [(p!"type", (.str p!"object")), (p!"properties", (.dict [(p!"type", (.dict [(p!"type", (.str p!"string")), (p!"enum", (.list [(.str p!"channel_unarchive")]))])), (p!"channel", (.dict [(p!"type", (.str p!"string"))])), (p!"user", (.dict [(p!"type", (.str p!"string"))]))]))]))])), (p!"commandsChanged", (.dict [(p!"summary", (.str p!"A slash command has been added or changed.")), (p!"payload", (.dict [(p!"type", (.str p!"object")), (p!"properties", (.dict [(p!"type", (.dict [(p!"type", (.str p!"string")), (p!"enum", (.list [(.str p!"commands_changed")]))])), (p!"event_ts", (.dict [(p!"type", (.str p!"string"))]))]))]))])), (p!"dndUpdated", (.dict [(p!"summary", (.str p!"Do not Disturb settings changed for the current user.")), (p!"payload", (.dict [(p!"type", (.str p!"object")), (p!"properties", (.dict [(p!"type", (.dict [(p!"type", (.str p!"string")), (p!"enum", (.list [(.str p!"dnd_updated")]))])), (p!"user", (.dict [(p!"type", (.str p!"string"))])), (p!"dnd_status", (.dict [(p!"type", (.str p!"object")), (p!"properties", (.dict [(p!"dnd_enabled", (.dict [(p!"type", (.str p!"boolean"))])), (p!"next_dnd_start_ts", (.dict [(p!"type", (.str p!"number"))])), (p!"next_dnd_end_ts", (.dict [(p!"type", (.str p!"number"))])), (p!"snooze_enabled", (.dict [(p!"type", (.str p!"boolean"))])), (p!"snooze_endtime", (.dict [(p!"type", (.str p!"number"))]))]))]))]))]))])), (p!"dndUpdatedUser", (.dict [(p!"summary", (.str p!"Do not Disturb settings changed for a member.")), (p!"payload", (.dict [(p!"type", (.str p!"object")), (p!"properties", (.dict [(p!"type", (.dict [(p!"type", (.str p!"string")), (p!"enum", (.list [(.str p!"dnd_updated_user")]))])), (p!"user", (.dict [(p!"type", (.str p!"string"))])), (p!"dnd_status", (.dict [(p!"type", (.str p!"object")), (p!"properties", (.dict [(p!"dnd_enabled", (.dict [(p!"type", (.str p!"boolean"))])), (p!"next_dnd_start_ts", (.dict [(p!"type", (.str p!"number"))])), (p!"next_dnd_end_ts", (.dict [(p!"type", (.str p!"number"))]))]))]))]))]))])), (p!"emailDomainChanged", (.dict [(p!"summary", (.str p!"The workspace email domain has changed.")), (p!"payload", (.dict [(p!"type", (.str p!"object")), (p!"properties", (.dict [(p!"type", (.dict [(p!"type", (.str p!"string")), (p!"enum", (.list [(.str p!"email_domain_changed")]))])), (p!"email_domain", (.dict [(p!"type", (.str p!"string"))])), (p!"event_ts", (.dict [(p!"type", (.str p!"string"))]))]))]))])), (p!"emojiRemoved", (.dict [(p!"summary", (.str p!"A custom emoji has been removed.")), (p!"payload", (.dict [(p!"type", (.str p!"object")), (p!"properties", (.dict [(p!"type", (.dict [(p!"type", (.str p!"string")), (p!"enum", (.list [(.str p!"emoji_changed")]))])), (p!"subtype", (.dict [(p!"type", (.str p!"string")), (p!"enum", (.list [(.str p!"remove")]))])), (p!"names", (.dict [(p!"type", (.str p!"array")), (p!"items", (.dict [(p!"type", (.str p!"string"))]))])), (p!"event_ts", (.dict [(p!"type", (.str p!"string"))]))]))]))])), (p!"emojiAdded", (.dict [(p!"summary", (.str p!"A custom emoji has been added.")), (p!"payload", (.dict [(p!"type", (.str p!"object")), (p!"properties", (.dict [(p!"type", (.dict [(p!"type", (.str p!"string")), (p!"enum", (.list [(.str p!"emoji_changed")]))])), (p!"subtype", (.dict [(p!"type", (.str p!"string")), (p!"enum", (.list [(.str p!"add")]))])), (p!"name", (.dict [(p!"type", (.str p!"string"))])), (p!"value", (.dict [(p!"type", (.str p!"string")), (p!"format", (.str p!"uri"))])), (p!"event_ts", (.dict [(p!"type", (.str p!"string"))]))]))]))])), (p!"fileChange", (.dict [(p!"summary", (.str p!"A file was changed.")), (p!"payload", (.dict [(p!"type", (.str p!"object")), (p!"properties", (.dict [(p!"type", (.dict [(p!"type", (.str p!"string")), (p!"enum", (.list [(.str p!"file_change")]))])), (p!"file_id", (.dict [(p!"type", (.str p!"string"))])), (p!"file", (.dict [(p!"type", (.str p!"object")), (p!"properties", (.dict [(p!"id", (.dict [(p!"type", (.str p!"string"))]))]))]))]))]))])), (p!"fileCommentAdded", (.dict [(p!"summary", (.str p!"A file comment was added.")), (p!"payload", (.dict [(p!"type", (.str p!"object")), (p!"properties", (.dict [(p!"type", (.dict [(p!"type", (.str p!"string")), (p!"enum", (.list [(.str p!"file_comment_added")]))])), (p!"comment", (.dict [])), (p!"file_id", (.dict [(p!"type", (.str p!"string"))])), (p!"file", (.dict [(p!"type", (.str p!"object")), (p!"properties", (.dict [(p!"id", (.dict [(p!"type", (.str p!"string"))]))]))]))]))]))])), (p!"fileCommentDeleted", (.dict [(p!"summary", (.str p!"A file comment was deleted.")), (p!"payload", (.dict [(p!"type", (.str p!"object")), (p!"properties", (.dict [(p!"type", (.dict [(p!"type", (.str p!"string")), (p!"enum", (.list [(.str p!"file_comment_deleted")]))])), (p!"comment", (.dict [(p!"type", (.str p!"string"))])), (p!"file_id", (.dict [(p!"type", (.str p!"string"))])), (p!"file", (.dict [(p!"type", (.str p!"object")), (p!"properties", (.dict [(p!"id", (.dict [(p!"type", (.str p!"string"))]))]))]))]))]))])), (p!"fileCommentEdited", (.dict [(p!"summary", (.str p!"A file comment was edited.")), (p!"payload", (.dict [(p!"type", (.str p!"object")), (p!"properties", (.dict [(p!"type", (.dict [(p!"type", (.str p!"string")), (p!"enum", (.list [(.str p!"file_comment_edited")]))])), (p!"comment", (.dict [])), (p!"file_id", (.dict [(p!"type", (.str p!"string"))])), (p!"file", (.dict [(p!"type", (.str p!"object")), (p!"properties", (.dict [(p!"id", (.dict [(p!"type", (.str p!"string"))]))]))]))]))]))])), (p!"fileCreated", (.dict [(p!"summary", (.str p!"A file was created.")), (p!"payload", (.dict [(p!"type", (.str p!"object")), (p!"properties", (.dict [(p!"type", (.dict [(p!"type", (.str p!"string")), (p!"enum", (.list [(.str p!"file_created")]))])), (p!"file_id", (.dict [(p!"type", (.str p!"string"))])), (p!"file", (.dict [(p!"type", (.str p!"object")), (p!"properties", (.dict [(p!"id", (.dict [(p!"type", (.str p!"string"))]))]))]))]))]))])), (p!"fileDeleted", (.dict [(p!"summary", (.str p!"A file was deleted.")), (p!"payload", (.dict [(p!"type", (.str p!"object")), (p!"properties", (.dict [(p!"type", (.dict [(p!"type", (.str p!"string")), (p!"enum", (.list [(.str p!"file_deleted")]))])), (p!"file_id", (.dict [(p!"type", (.str p!"string"))])), (p!"event_ts", (.dict [(p!"type", (.str p!"string"))]))]))]))])), (p!"filePublic", (.dict [(p!"summary", (.str p!"A file was made public.")), (p!"payload", (.dict [(p!"type", (.str p!"object")), (p!"properties", (.dict [(p!"type", (.dict [(p!"type", (.str p!"string")), (p!"enum", (.list [(.str p!"file_public")]))])), (p!"file_id", (.dict [(p!"type", (.str p!"string"))])), (p!"file", (.dict [(p!"type", (.str p!"object")), (p!"properties", (.dict [(p!"id", (.dict [(p!"type", (.str p!"string"))]))]))]))]))]))])), (p!"fileShared", (.dict [(p!"summary", (.str p!"A file was shared.")), (p!"payload", (.dict [(p!"type", (.str p!"object")), (p!"properties", (.dict [(p!"type", (.dict [(p!"type", (.str p!"string")), (p!"enum", (.list [(.str p!"file_shared")]))])), (p!"file_id", (.dict [(p!"type", (.str p!"string"))])), (p!"file", (.dict [(p!"type", (.str p!"object")), (p!"properties", (.dict [(p!"id", (.dict [(p!"type", (.str p!"string"))]))]))]))]))]))])), (p!"fileUnshared", (.dict [(p!"summary", (.str p!"A file was unshared.")), (p!"payload", (.dict [(p!"type", (.str p!"object")), (p!"properties", (.dict [(p!"type", (.dict [(p!"type", (.str p!"string")), (p!"enum", (.list [(.str p!"file_unshared")]))])), (p!"file_id", (.dict [(p!"type", (.str p!"string"))])), (p!"file", (.dict [(p!"type", (.str p!"object")), (p!"properties", (.dict [(p!"id", (.dict [(p!"type", (.str p!"string"))]))]))]))]))]))])), (p!"goodbye", (.dict [(p!"summary", (.str p!"The server intends to close the connection soon.")), (p!"payload", (.dict [(p!"type", (.str p!"object")), (p!"properties", (.dict [(p!"type", (.dict [(p!"type", (.str p!"string")), (p!"enum", (.list [(.str p!"goodbye")]))]))]))]))])), (p!"groupArchive", (.dict [(p!"summary", (.str p!"A private channel was archived.")), (p!"payload", (.dict [(p!"type", (.str p!"object")), (p!"properties", (.dict [(p!"type", (.dict [(p!"type", (.str p!"string")), (p!"enum", (.list [(.str p!"group_archive")]))])), (p!"channel", (.dict [(p!"type", (.str p!"string"))]))]))]))])), (p!"groupClose", (.dict [(p!"summary", (.str p!"You closed a private channel.")), (p!"payload", (.dict [(p!"type", (.str p!"object")), (p!"properties", (.dict [(p!"type", (.dict [(p!"type", (.str p!"string")), (p!"enum", (.list [(.str p!"group_close")]))])), (p!"user", (.dict [(p!"type", (.str p!"string"))])), (p!"channel", (.dict [(p!"type", (.str p!"string"))]))]))]))])), (p!"groupHistoryChanged", (.dict [(p!"summary", (.str p!"Bulk updates were made to a private channel's history.")), (p!"payload", (.dict [(p!"type", (.str p!"object")), (p!"properties", (.dict [(p!"type", (.dict [(p!"type", (.str p!"string")), (p!"enum", (.list [(.str p!"group_history_changed")]))])), (p!"latest", (.dict [(p!"type", (.str p!"string"))])), (p!"ts", (.dict [(p!"type", (.str p!"string"))])), (p!"event_ts", (.dict [(p!"type", (.str p!"string"))]))]))]))])), (p!"groupJoined", (.dict [(p!"summary", (.str p!"You joined a private channel.")), (p!"payload", (.dict [(p!"type", (.str p!"object")), (p!"properties", (.dict [(p!"type", (.dict [(p!"type", (.str p!"string")), (p!"enum", (.list [(.str p!"group_joined")]))])), (p!"channel", (.dict [(p!"type", (.str p!"object")), (p!"properties", (.dict [(p!"id", (.dict [(p!"type", (.str p!"string"))])), (p!"name", (.dict [(p!"type", (.str p!"string"))])), (p!"created", (.dict [(p!"type", (.str p!"number"))])), (p!"creator", (.dict [(p!"type", (.str p!"string"))]))]))]))]))]))])), (p!"groupLeft", (.dict [(p!"summary", (.str p!"You left a private channel.")), (p!"payload", (.dict [(p!"type", (.str p!"object")), (p!"properties", (.dict [(p!"type", (.dict [(p!"type", (.str p!"string")), (p!"enum", (.list [(.str p!"group_left")]))])), (p!"channel", (.dict [(p!"type", (.str p!"string"))]))]))]))])), (p!"groupMarked", (.dict [(p!"summary", (.str p!"A private channel read marker was updated.")), (p!"payload", (.dict [(p!"type", (.str p!"object")), (p!"properties", (.dict [(p!"type", (.dict [(p!"type", (.str p!"string")), (p!"enum", (.list [(.str p!"group_marked")]))])), (p!"channel", (.dict [(p!"type", (.str p!"string"))])), (p!"ts", (.dict [(p!"type", (.str p!"string"))]))]))]))])), (p!"groupOpen", (.dict [(p!"summary", (.str p!"You opened a private channel.")), (p!"payload", (.dict [(p!"type", (.str p!"object")), (p!"properties", (.dict [(p!"type", (.dict [(p!"type", (.str p!"string")), (p!"enum", (.list [(.str p!"group_open")]))])), (p!"user", (.dict [(p!"type", (.str p!"string"))])), (p!"channel", (.dict [(p!"type", (.str p!"string"))]))]))]))])), (p!"groupRename", (.dict [(p!"summary", (.str p!"A private channel was renamed.")), (p!"payload", (.dict [(p!"type", (.str p!"object")), (p!"properties", (.dict [(p!"type", (.dict [(p!"type", (.str p!"string")), (p!"enum", (.list [(.str p!"group_rename")]))])), (p!"channel", (.dict [(p!"type", (.str p!"object")), (p!"properties", (.dict [(p!"id", (.dict [(p!"type", (.str p!"string"))])), (p!"name", (.dict [(p!"type", (.str p!"string"))])), (p!"created", (.dict [(p!"type", (.str p!"number"))]))]))]))]))]))])), (p!"groupUnarchive", (.dict [(p!"summary", (.str p!"A private channel was unarchived.")), (p!"payload", (.dict [(p!"type", (.str p!"object")), (p!"properties", (.dict [(p!"type", (.dict [(p!"type", (.str p!"string")), (p!"enum", (.list [(.str p!"group_unarchive")]))])), (p!"channel", (.dict [(p!"type", (.str p!"string"))])), (p!"user", (.dict [(p!"type", (.str p!"string"))]))]))]))])), (p!"imClose", (.dict [(p!"summary", (.str p!"You closed a DM.")), (p!"payload", (.dict [(p!"type", (.str p!"object")), (p!"properties", (.dict [(p!"type", (.dict [(p!"type", (.str p!"string")), (p!"enum", (.list [(.str p!"im_close")]))])), (p!"channel", (.dict [(p!"type", (.str p!"string"))])), (p!"user", (.dict [(p!"type", (.str p!"string"))]))]))]))])), (p!"imCreated", (.dict [(p!"summary", (.str p!"A DM was created.")), (p!"payload", (.dict [(p!"type", (.str p!"object")), (p!"properties", (.dict [(p!"type", (.dict [(p!"type", (.str p!"string")), (p!"enum", (.list [(.str p!"im_created")]))])), (p!"channel", (.dict [(p!"type", (.str p!"object")), (p!"properties", (.dict [(p!"id", (.dict [(p!"type", (.str p!"string"))])), (p!"name", (.dict [(p!"type", (.str p!"string"))])), (p!"created", (.dict [(p!"type", (.str p!"number"))])), (p!"creator", (.dict [(p!"type", (.str p!"string"))]))]))])), (p!"user", (.dict [(p!"type", (.str p!"string"))]))]))]))])), (p!"imMarked", (.dict [(p!"summary", (.str p!"A direct message read marker was updated.")), (p!"payload", (.dict [(p!"type", (.str p!"object")), (p!"properties", (.dict [(p!"type", (.dict [(p!"type", (.str p!"string")), (p!"enum", (.list [(.str p!"im_marked")]))])), (p!"channel", (.dict [(p!"type", (.str p!"string"))])), (p!"ts", (.dict [(p!"type", (.str p!"string"))]))]))]))])), (p!"imOpen", (.dict [(p!"summary", (.str p!"You opened a DM.")), (p!"payload", (.dict [(p!"type", (.str p!"object")), (p!"properties", (.dict [(p!"type", (.dict [(p!"type", (.str p!"string")), (p!"enum", (.list [(.str p!"im_open")]))])), (p!"channel", (.dict [(p!"type", (.str p!"string"))])), (p!"user", (.dict [(p!"type", (.str p!"string"))]))]))]))])), (p!"manualPresenceChange", (.dict [(p!"summary", (.str p!"You manually updated your presence.")), (p!"payload", (.dict [(p!"type", (.str p!"object")), (p!"properties", (.dict [(p!"type", (.dict [(p!"type", (.str p!"string")), (p!"enum", (.list [(.str p!"manual_presence_change")]))])), (p!"presence", (.dict [(p!"type", (.str p!"string"))]))]))]))])), (p!"memberJoinedChannel", (.dict [(p!"summary", (.str p!"A user joined a public or private channel.")), (p!"payload", (.dict [(p!"type", (.str p!"object")), (p!"properties", (.dict [(p!"type", (.dict [(p!"type", (.str p!"string")), (p!"enum", (.list [(.str p!"member_joined_channel")]))])), (p!"user", (.dict [(p!"type", (.str p!"string"))])), (p!"channel", (.dict [(p!"type", (.str p!"string"))])), (p!"channel_type", (.dict [(p!"type", (.str p!"string")), (p!"enum", (.list [(.str p!"C"), (.str p!"G")]))])), (p!"team", (.dict [(p!"type", (.str p!"string"))])), (p!"inviter", (.dict [(p!"type", (.str p!"string"))]))]))]))])), (p!"memberLeftChannel", (.dict [(p!"summary", (.str p!"A user left a public or private channel.")), (p!"payload", (.dict [(p!"type", (.str p!"object")), (p!"properties", (.dict [(p!"type", (.dict [(p!"type", (.str p!"string")), (p!"enum", (.list [(.str p!"member_left_channel")]))])), (p!"user", (.dict [(p!"type", (.str p!"string"))])), (p!"channel", (.dict [(p!"type", (.str p!"string"))])), (p!"channel_type", (.dict [(p!"type", (.str p!"string")), (p!"enum", (.list [(.str p!"C"), (.str p!"G")]))])), (p!"team", (.dict [(p!"type", (.str p!"string"))]))]))]))])), (p!"message", (.dict [(p!"summary", (.str p!"A message was sent to a channel.")), (p!"payload", (.dict [(p!"type", (.str p!"object")), (p!"properties", (.dict [(p!"type", (.dict [(p!"type", (.str p!"string")), (p!"enum", (.list [(.str p!"message")]))])), (p!"user", (.dict [(p!"type", (.str p!"string"))])), (p!"channel", (.dict [(p!"type", (.str p!"string"))])), (p!"text", (.dict [(p!"type", (.str p!"string"))])), (p!"ts", (.dict [(p!"type", (.str p!"string"))])), (p!"attachments", (.dict [(p!"type", (.str p!"array")), (p!"items", (.dict [(p!"$ref", (.str p!"#/components/schemas/attachment"))]))])), (p!"edited", (.dict [(p!"type", (.str p!"object")), (p!"properties", (.dict [(p!"user", (.dict [(p!"type", (.str p!"string"))])), (p!"ts", (.dict [(p!"type", (.str p!"string"))]))]))]))]))]))])), (p!"outgoingMessage", (.dict [(p!"summary", (.str p!"A message was sent to a channel.")), (p!"payload", (.dict [(p!"type", (.str p!"object")), (p!"properties", (.dict [(p!"id", (.dict [(p!"type", (.str p!"number"))])), (p!"type", (.dict [(p!"type", (.str p!"string")), (p!"enum", (.list [(.str p!"message")]))])), (p!"channel", (.dict [(p!"type", (.str p!"string"))])), (p!"text", (.dict [(p!"type", (.str p!"string"))]))]))]))]))]))]))])) : Option Unit).isSome = true := by decide +kernel

/-- `yaml_specs/valid/single_file/streetlights-kafka-asyncapi.yml`, tests/test_base_validation.py:27 -/
example : (do
  discard (load .AsyncAPI3 (.dict [(p!"asyncapi", (.str p!"3.0.0")), (p!"info", (.dict [(p!"title", (.str p!"Streetlights Kafka API")), (p!"version", (.str p!"1.0.0")), (p!"description", (.str p!"The Smartylighting Streetlights API allows you to remotely manage the city lights.\n\n### Check out its awesome features:\n\n* Turn a specific streetlight on/off 🌃\n* Dim a specific streetlight 😎\n* Receive real-time information about environmental lighting conditions 📈\n")), (p!"license", (.dict [(p!"name", (.str p!"Apache 2.0")), (p!"url", (.str p!"https://www.apache.org/licenses/LICENSE-2.0"))]))])), (p!"defaultContentType", (.str p!"application/json")), (p!"servers", (.dict [(p!"scram-connections", (.dict [(p!"host", (.str p!"test.mykafkacluster.org:18092")), (p!"protocol", (.str p!"kafka-secure")), (p!"description", (.str p!"Test broker secured with scramSha256")), (p!"security", (.list [(.dict [(p!"$ref", (.str p!"#/components/securitySchemes/saslScram"))])])), (p!"tags", (.list [(.dict [(p!"name", (.str p!"env:test-scram")), (p!"description", (.str p!"This environment is meant for running internal tests through scramSha256"))]), (.dict [(p!"name", (.str p!"kind:remote")), (p!"description", (.str p!"This server is a remote server. Not exposed by the application"))]), (.dict [(p!"name", (.str p!"visibility:private")), (p!"description", (.str p!"This resource is private and only available to certain users"))])]))])), (p!"mtls-connections", (.dict [(p!"host", (.str p!"test.mykafkacluster.org:28092")), (p!"protocol", (.str p!"kafka-secure")), (p!"description", (.str p!"Test broker secured with X509")), (p!"security", (.list [(.dict [(p!"$ref", (.str p!"#/components/securitySchemes/certs"))])])), (p!"tags", (.list [(.dict [(p!"name", (.str p!"env:test-mtls")), (p!"description", (.str p!"This environment is meant for running internal tests through mtls"))]), (.dict [(p!"name", (.str p!"kind:remote")), (p!"description", (.str p!"This server is a remote server. Not exposed by the application"))]), (.dict [(p!"name", (.str p!"visibility:private")), (p!"description", (.str p!"This resource is private and only available to certain users"))])]))]))])), (p!"channels", (.dict [(p!"lightingMeasured", (.dict [(p!"address", (.str p!"smartylighting.streetlights.1.0.event.{streetlightId}.lighting.measured")), (p!"messages", (.dict [(p!"lightMeasured", (.dict [(p!"$ref", (.str p!"#/components/messages/lightMeasured"))]))])), (p!"description", (.str p!"The topic on which measured values may be produced and consumed.")), (p!"parameters", (.dict [(p!"streetlightId", (.dict [(p!"$ref", (.str p!"#/components/parameters/streetlightId"))]))]))])), (p!"lightTurnOn", (.dict [(p!"address", (.str p!"smartylighting.streetlights.1.0.action.{streetlightId}.turn.on")), (p!"messages", (.dict [(p!"turnOn", (.dict [(p!"$ref", (.str p!"#/components/messages/turnOnOff"))]))])), (p!"parameters", (.dict [(p!"streetlightId", (.dict [(p!"$ref", (.str p!"#/components/parameters/streetlightId"))]))]))])), (p!"lightTurnOff", (.dict [(p!"address", (.str p!"smartylighting.streetlights.1.0.action.{streetlightId}.turn.off")), (p!"messages", (.dict [(p!"turnOff", (.dict [(p!"$ref", (.str p!"#/components/messages/turnOnOff"))]))])), (p!"parameters", (.dict [(p!"streetlightId", (.dict [(p!"$ref", (.str p!"#/components/parameters/streetlightId"))]))]))])), (p!"lightsDim", (.dict [(p!"address", (.str p!"smartylighting.streetlights.1.0.action.{streetlightId}.dim")), (p!"messages", (.dict [(p!"dimLight", (.dict [(p!"$ref", (.str p!"#/components/messages/dimLight"))]))])), (p!"parameters", (.dict [(p!"streetlightId", (.dict [(p!"$ref", (.str p!"#/components/parameters/streetlightId"))]))]))]))])), (p!"operations", (.dict [(p!"receiveLightMeasurement", (.dict [(p!"action", (.str p!"receive")), (p!"channel", (.dict [(p!"$ref", (.str p!"#/channels/lightingMeasured"))])), (p!"summary", (.str p!"Inform about environmental lighting conditions of a particular streetlight.")), (p!"traits", (.list [(.dict [(p!"$ref", (.str p!"#/components/operationTraits/kafka"))])])), (p!"messages", (.list [(.dict [(p!"$ref", (.str p!"#/channels/lightingMeasured/messages/lightMeasured"))])]))])), (p!"turnOn", (.dict [(p!"action", (.str p!"send")), (p!"channel", (.dict [(p!"$ref", (.str p!"#/channels/lightTurnOn"))])), (p!"traits", (.list [(.dict [(p!"$ref", (.str p!"#/components/operationTraits/kafka"))])])), (p!"messages", (.list [(.dict [(p!"$ref", (.str p!"#/channels/lightTurnOn/messages/turnOn"))])]))])), (p!"turnOff", (.dict [(p!"action", (.str p!"send")), (p!"channel", (.dict [(p!"$ref", (.str p!"#/channels/lightTurnOff"))])), (p!"traits", (.list [(.dict [(p!"$ref", (.str p!"#/components/operationTraits/kafka"))])])), (p!"messages", (.list [(.dict [(p!"$ref", (.str p!"#/channels/lightTurnOff/messages/turnOff"))])]))])), (p!"dimLight", (.dict [(p!"action", (.str p!"send")), (p!"channel", (.dict [(p!"$ref", (.str p!"#/channels/lightsDim"))])), (p!"traits", (.list [(.dict [(p!"$ref", (.str p!"#/components/operationTraits/kafka"))])])), (p!"messages", (.list [(.dict [(p!"$ref", (.str p!"#/channels/lightsDim/messages/dimLight"))])]))]))])), (p!"components", (.dict [(p!"messages", (.dict [(p!"lightMeasured", (.dict [(p!"name", (.str p!"lightMeasured")), (p!"title", (.str p!"Light measured")), (p!"summary", (.str p!"Inform about environmental lighting conditions of a particular streetlight.")), (p!"contentType", (.str p!"application/json")), (p!"traits", (.list [(.dict [(p!"$ref", (.str p!"#/components/messageTraits/commonHeaders"))])])), (p!"payload", (.dict [(p!"$ref", (.str p!"#/components/schemas/lightMeasuredPayload"))]))])), (p!"turnOnOff", (.dict [(p!"name", (.str p!"turnOnOff")), (p!"title", (.str p!"Turn on/off")), (p!"summary", (.str p!"Command a particular streetlight to turn the lights on or off.")), (p!"traits", (.list [(.dict [(p!"$ref", (.str p!"#/components/messageTraits/commonHeaders"))])])), (p!"payload", (.dict [(p!"$ref", (.str p!"#/components/schemas/turnOnOffPayload"))]))])), (p!"dimLight", (.dict [(p!"name", (.str p!"dimLight")), (p!"title", (.str p!"Dim light")), (p!"summary", (.str p!"Command a particular streetlight to dim the lights.")), (p!"traits", (.list [(.dict [(p!"$ref", (.str p!"#/components/messageTraits/commonHeaders"))])])), (p!"payload", (.dict [(p!"$ref", (.str p!"#/components/schemas/dimLightPayload"))]))]))])), (p!"schemas", (.dict [(p!"lightMeasuredPayload", (.dict [(p!"type", (.str p!"object")), (p!"properties", (.dict [(p!"lumens", (.dict [(p!"type", (.str p!"integer")), (p!"minimum", (.int (0))), (p!"description", (.str p!"Light intensity measured in lumens."))])), (p!"sentAt", (.dict [(p!"$ref", (.str p!"#/components/schemas/sentAt"))]))]))])), (p!"turnOnOffPayload", (.dict [(p!"type", (.str p!"object")), (p!"properties", (.dict [(p!"command", (.dict [(p!"type", (.str p!"string")), (p!"enum", (.list [(.str p!"on"), (.str p!"off")])), (p!"description", (.str p!"Whether to turn on or off the light."))])), (p!"sentAt", (.dict [(p!"$ref", (.str p!"#/components/schemas/sentAt"))]))]))])), (p!"dimLightPayload", (.dict [(p!"type", (.str p!"object")), (p!"properties", (.dict [(p!"percentage", (.dict [(p!"type", (.str p!"integer")), (p!"description", (.str p!"Percentage to which the light should be dimmed to.")), (p!"minimum", (.int (0))), (p!"maximum", (.int (100)))])), (p!"sentAt", (.dict [(p!"$ref", (.str p!"#/components/schemas/sentAt"))]))]))])), (p!"sentAt", (.dict [(p!"type", (.str p!"string")), (p!"format", (.str p!"date-time")), (p!"description", (.str p!"Date and time when the message was sent."))]))])), (p!"securitySchemes", (.dict [(p!"saslScram", (.dict [(p!"type", (.str p!"scramSha256")), (p!"description", (.str p!"Provide your username and password for SASL/SCRAM authentication"))])), (p!"certs", (.dict [(p!"type", (.str p!"X509")), (p!"description", (.str p!"Download the certificate files from service provider"))]))])), (p!"parameters", (.dict [(p!"streetlightId", (.dict [(p!"description", (.str p!"The ID of the streetlight."))]))])), (p!"messageTraits", (.dict [(p!"commonHeaders", (.dict [(p!"headers", (.dict [(p!"type", (.str p!"object")), (p!"properties", (.dict [(p!"my-app-header", (.dict [(p!"type", (.str p!"integer")), (p!"minimum", (.int (0))), (p!"maximum", (.int (100)))]))]))]))]))])), (p!"operationTraits", (.dict [(p!"kafka", (.dict [(p!"bindings", (.dict [(p!"kafka", (.dict [(p!"clientId", (.dict [(p!"type", (.str p!"string")), (p!"enum", (.list [(.str p!"my-app-id")]))]))]))]))]))]))]))])) : Option Unit).isSome = true := by decide +kernel

/-- `yaml_specs/valid/single_file/streetlights-mqtt-asyncapi.yml`, tests/test_base_validation.py:27 -/
example : (do
  discard (load .AsyncAPI3 (.dict [(p!"asyncapi", (.str p!"3.0.0")), (p!"info", (.dict [(p!"title", (.str p!"Streetlights MQTT API")), (p!"version", (.str p!"1.0.0")), (p!"description", (.str p!"The Smartylighting Streetlights API allows you to remotely manage the city lights.\n\n### Check out its awesome features:\n\n* Turn a specific streetlight on/off 🌃\n* Dim a specific streetlight 😎\n* Receive real-time information about environmental lighting conditions 📈\n")), (p!"license", (.dict [(p!"name", (.str p!"Apache 2.0")), (p!"url", (.str p!"https://www.apache.org/licenses/LICENSE-2.0"))]))])), (p!"defaultContentType", (.str p!"application/json")), (p!"servers", (.dict [(p!"production", (.dict [(p!"host", (.str p!"test.mosquitto.org:{port}")), (p!"protocol", (.str p!"mqtt")), (p!"description", (.str p!"Test broker")), (p!"variables", (.dict [(p!"port", (.dict [(p!"description", (.str p!"Secure connection (TLS) is available through port 8883.")), (p!"default", (.str p!"1883")), (p!"enum", (.list [(.str p!"1883"), (.str p!"8883")]))]))])), (p!"security", (.list [(.dict [(p!"$ref", (.str p!"#/components/securitySchemes/apiKey"))]), (.dict [(p!"type", (.str p!"oauth2")), (p!"description", (.str p!"Flows to support OAuth 2.0")), (p!"flows", (.dict [(p!"implicit", (.dict [(p!"authorizationUrl", (.str p!"https://authserver.example/auth")), (p!"availableScopes", (.dict [(p!"streetlights:on", (.str p!"Ability to switch lights on")), (p!"streetlights:off", (.str p!"Ability to switch lights off")), (p!"streetlights:dim", (.str p!"Ability to dim the lights"))]))])), (p!"password", (.dict [(p!"tokenUrl", (.str p!"https://authserver.example/token")), (p!"availableScopes", (.dict [(p!"streetlights:on", (.str p!"Ability to switch lights on")), (p!"streetlights:off", (.str p!"Ability to switch lights off")), (p!"streetlights:dim", (.str p!"Ability to dim the lights"))]))])), (p!"clientCredentials", (.dict [(p!"tokenUrl", (.str p!"https://authserver.example/token")), (p!"availableScopes", (.dict [(p!"streetlights:on", (.str p!"Ability to switch lights on")), (p!"streetlights:off", (.str p!"Ability to switch lights off")), (p!"streetlights:dim", (.str p!"Ability to dim the lights"))]))])), (p!"authorizationCode", (.dict [(p!"authorizationUrl", (.str p!"https://authserver.example/auth")), (p!"tokenUrl", (.str p!"https://authserver.example/token")), (p!"refreshUrl", (.str p!"https://authserver.example/refresh")), (p!"availableScopes", (.dict [(p!"streetlights:on", (.str p!"Ability to switch lights on")), (p!"streetlights:off", (.str p!"Ability to switch lights off")), (p!"streetlights:dim", (.str p!"Ability to dim the lights"))]))]))])), (p!"scopes", (.list [(.str p!"streetlights:on"), (.str p!"streetlights:off"), (.str p!"streetlights:dim")]))]), (.dict [(p!"$ref", (.str p!"#/components/securitySchemes/openIdConnectWellKnown"))])])), (p!"tags", (.list [(.dict [(p!"name", (.str p!"env:production")), (p!"description", (.str p!"This environment is meant for production use case"))]), (.dict [(p!"name", (.str p!"kind:remote")), (p!"description", (.str p!"This server is a remote server. Not exposed by the application"))]), (.dict [(p!"name", (.str p!"visibility:public")), (p!"description", (.str p!"This resource is public and available to everyone"))])]))]))])), (p!"channels", (.dict [(p!"lightingMeasured", (.dict [(p!"address", (.str p!"smartylighting/streetlights/1/0/event/{streetlightId}/lighting/measured")), (p!"messages", (.dict [(p!"lightMeasured", (.dict [(p!"$ref", (.str p!"#/components/messages/lightMeasured"))]))])), (p!"description", (.str p!"The topic on which measured values may be produced and consumed.")), (p!"parameters", (.dict [(p!"streetlightId", (.dict [(p!"$ref", (.str p!"#/components/parameters/streetlightId"))]))]))])), (p!"lightTurnOn", (.dict [(p!"address", (.str p!"smartylighting/streetlights/1/0/action/{streetlightId}/turn/on")), (p!"messages", (.dict [(p!"turnOn", (.dict [(p!"$ref", (.str p!"#/components/messages/turnOnOff"))]))])), (p!"parameters", (.dict [(p!"streetlightId", (.dict [(p!"$ref", (.str p!"#/components/parameters/streetlightId"))]))]))])), (p!"lightTurnOff", (.dict [(p!"address", (.str p!"smartylighting/streetlights/1/0/action/{streetlightId}/turn/off")), (p!"messages", (.dict [(p!"turnOff", (.dict [(p!"$ref", (.str p!"#/components/messages/turnOnOff"))]))])), (p!"parameters", (.dict [(p!"streetlightId", (.dict [(p!"$ref", (.str p!"#/components/parameters/streetlightId"))]))]))])), (p!"lightsDim", (.dict [(p!"address", (.str p!"smartylighting/streetlights/1/0/action/{streetlightId}/dim")), (p!"messages", (.dict [(p!"dimLight", (.dict [(p!"$ref", (.str p!"#/components/messages/dimLight"))]))])), (p!"parameters", (.dict [(p!"streetlightId", (.dict [(p!"$ref", (.str p!"#/components/parameters/streetlightId"))]))]))]))])), (p!"operations", (.dict [(p!"receiveLightMeasurement", (.dict [(p!"action", (.str p!"receive")), (p!"channel", (.dict [(p!"$ref", (.str p!"#/channels/lightingMeasured"))])), (p!"summary", (.str p!"Inform about environmental lighting conditions of a particular streetlight.")), (p!"traits", (.list [(.dict [(p!"$ref", (.str p!"#/components/operationTraits/mqtt"))])])), (p!"messages", (.list [(.dict [(p!"$ref", (.str p!"#/channels/lightingMeasured/messages/lightMeasured"))])]))])), (p!"turnOn", (.dict [(p!"action", (.str p!"send")), (p!"channel", (.dict [(p!"$ref", (.str p!"#/channels/lightTurnOn"))])), (p!"traits", (.list [(.dict [(p!"$ref", (.str p!"#/components/operationTraits/mqtt"))])])), (p!"messages", (.list [(.dict [(p!"$ref", (.str p!"#/channels/lightTurnOn/messages/turnOn"))])]))])), (p!"turnOff", (.dict [(p!"action", (.str p!"send")), (p!"channel", (.dict [(p!"$ref", (.str p!"#/channels/lightTurnOff"))])), (p!"traits", (.list [(.dict [(p!"$ref", (.str p!"#/components/operationTraits/mqtt"))])])), (p!"messages", (.list [(.dict [(p!"$ref", (.str p!"#/channels/lightTurnOff/messages/turnOff"))])]))])), (p!"dimLight", (.dict [(p!"action", (.str p!"send")), (p!"channel", (.dict [(p!"$ref", (.str p!"#/channels/lightsDim"))])), (p!"traits", (.list [(.dict [(p!"$ref", (.str p!"#/components/operationTraits/mqtt"))])])), (p!"messages", (.list [(.dict [(p!"$ref", (.str p!"#/channels/lightsDim/messages/dimLight"))])]))]))])), (p!"components", (.dict [(p!"messages", (.dict [(p!"lightMeasured", (.dict [(p!"name", (.str p!"lightMeasured")), (p!"title", (.str p!"Light measured")), (p!"summary", (.str p!"Inform about environmental lighting conditions of a particular streetlight.")), (p!"contentType", (.str p!"application/json")), (p!"traits", (.list [(.dict [(p!"$ref", (.str p!"#/components/messageTraits/commonHeaders"))])])), (p!"payload", (.dict [(p!"$ref", (.str p!"#/components/schemas/lightMeasuredPayload"))]))])), (p!"turnOnOff", (.dict [(p!"name", (.str p!"turnOnOff")), (p!"title", (.str p!"Turn on/off")), (p!"summary", (.str p!"Command a particular streetlight to turn the lights on or off.")), (p!"traits", (.list [(.dict [(p!"$ref", (.str p!"#/components/messageTraits/commonHeaders"))])])), (p!"payload", (.dict [(p!"$ref", (.str p!"#/components/schemas/turnOnOffPayload"))]))])), (p!"dimLight", (.dict [(p!"name", (.str p!"dimLight")), (p!"title", (.str p!"Dim light")), (p!"summary", (.str p!"Command a particular streetlight to dim the lights.")), (p!"traits", (.list [(.dict [(p!"$ref", (.str p!"#/components/messageTraits/commonHeaders"))])])), (p!"payload", (.dict [(p!"$ref", (.str p!"#/components/schemas/dimLightPayload"))]))]))])), (p!"schemas", (.dict [(p!"lightMeasuredPayload", (.dict [(p!"type", (.str p!"object")), (p!"properties", (.dict [(p!"lumens", (.dict [(p!"type", (.str p!"integer")), (p!"minimum", (.int (0))), (p!"description", (.str p!"Light intensity measured in lumens."))])), (p!"sentAt", (.dict [(p!"$ref", (.str p!"#/components/schemas/sentAt"))]))]))])), (p!"turnOnOffPayload", (.dict [(p!"type", (.str p!"object")), (p!"properties", (.dict [(p!"command", (.dict [(p!"type", (.str p!"string")), (p!"enum", (.list [(.str p!"on"), (.str p!"off")])), (p!"description", (.str p!"Whether to turn on or off the light."))])), (p!"sentAt", (.dict [(p!"$ref", (.str p!"#/components/schemas/sentAt"))]))]))])), (p!"dimLightPayload", (.dict [(p!"type", (.str p!"object")), (p!"properties", (.dict [(p!"percentage", (.dict [(p!"type", (.str p!"integer")), (p!"description", (.str p!"Percentage to which the light should be dimmed to.")), (p!"minimum", (.int (0))), (p!"maximum", (.int (100)))])), (p!"sentAt", (.dict [(p!"$ref", (.str p!"#/components/schemas/sentAt"))]))]))])), (p!"sentAt", (.dict [(p!"type", (.str p!"string")), (p!"format", (.str p!"date-time")), (p!"description", (.str p!"Date and time when the message was sent."))]))])), (p!"securitySchemes", (.dict [(p!"apiKey", (.dict [(p!"type", (.str p!"apiKey")), (p!"in", (.str p!"user")), (p!"description", (.str p!"Provide your API key as the user and leave the password empty."))])), (p!"supportedOauthFlows", (.dict [(p!"type", (.str p!"oauth2")), (p!"description", (.str p!"Flows to support OAuth 2.0")), (p!"flows", (.dict [(p!"implicit", (.dict [(p!"authorizationUrl", (.str p!"https://authserver.example/auth")), (p!"availableScopes", (.dict [(p!"streetlights:on", (.str p!"Ability to switch lights on")), (p!"streetlights:off", (.str p!"Ability to switch lights off")), (p!"streetlights:dim", (.str p!"Ability to dim the lights"))]))])), (p!"password", (.dict [(p!"tokenUrl", (.str p!"https://authserver.example/token")), (p!"availableScopes", (.dict [(p!"streetlights:on", (.str p!"Ability to switch lights on")), (p!"streetlights:off", (.str p!"Ability to switch lights off")), (p!"streetlights:dim", (.str p!"Ability to dim the lights"))]))])), (p!"clientCredentials", (.dict [(p!"tokenUrl", (.str p!"https://authserver.example/token")), (p!"availableScopes", (.dict [(p!"streetlights:on", (.str p!"Ability to switch lights on")), (p!"streetlights:off", (.str p!"Ability to switch lights off")), (p!"streetlights:dim", (.str p!"Ability to dim the lights"))]))])), (p!"authorizationCode", (.dict [(p!"authorizationUrl", (.str p!"https://authserver.example/auth")), (p!"tokenUrl", (.str p!"https://authserver.example/token")), (p!"refreshUrl", (.str p!"https://authserver.example/refresh")), (p!"availableScopes", (.dict [(p!"streetlights:on", (.str p!"Ability to switch lights on")), (p!"streetlights:off", (.str p!"Ability to switch lights off")), (p!"streetlights:dim", (.str p!"Ability to dim the lights"))]))]))]))])), (p!"openIdConnectWellKnown", (.dict [(p!"type", (.str p!"openIdConnect")), (p!"openIdConnectUrl", (.str p!"https://authserver.example/.well-known"))]))])), (p!"parameters", (.dict [(p!"streetlightId", (.dict [(p!"description", (.str p!"The ID of the streetlight."))]))])), (p!"messageTraits", (.dict [(p!"commonHeaders", (.dict [(p!"headers", (.dict [(p!"type", (.str p!"object")), (p!"properties", (.dict [(p!"my-app-header", (.dict [(p!"type", (.str p!"integer")), (p!"minimum", (.int (0))), (p!"maximum", (.int (100)))]))]))]))]))])), (p!"operationTraits", (.dict [(p!"mqtt", (.dict [(p!"bindings", (.dict [(p!"mqtt", (.dict [(p!"qos", (.int (1)))]))]))]))]))]))])) : Option Unit).isSome = true := by decide +kernel

/-- `yaml_specs/valid/single_file/streetlights-operation-security-asyncapi.yml`, tests/test_base_validation.py:27 -/
example : (do
  discard (load .AsyncAPI3 (.dict [(p!"asyncapi", (.str p!"3.0.0")), (p!"info", (.dict [(p!"title", (.str p!"Streetlights Kafka API")), (p!"version", (.str p!"1.0.0")), (p!"description", (.str p!"The Smartylighting Streetlights API allows you to remotely manage the city lights.\n\n### Check out its awesome features:\n\n* Turn a specific streetlight on/off 🌃\n* Dim a specific streetlight 😎\n* Receive real-time information about environmental lighting conditions 📈\n")), (p!"license", (.dict [(p!"name", (.str p!"Apache 2.0")), (p!"url", (.str p!"https://www.apache.org/licenses/LICENSE-2.0"))]))])), (p!"defaultContentType", (.str p!"application/json")), (p!"servers", (.dict [(p!"test", (.dict [(p!"host", (.str p!"test.mykafkacluster.org:8092")), (p!"protocol", (.str p!"kafka-secure")), (p!"description", (.str p!"Test broker")), (p!"security", (.list [(.dict [(p!"$ref", (.str p!"#/components/securitySchemes/saslScram"))])]))])), (p!"test_oauth", (.dict [(p!"host", (.str p!"test.mykafkacluster.org:8093")), (p!"protocol", (.str p!"kafka-secure")), (p!"description", (.str p!"Test port for oauth")), (p!"security", (.list [(.dict [(p!"type", (.str p!"oauth2")), (p!"description", (.str p!"The oauth security descriptions")), (p!"flows", (.dict [(p!"clientCredentials", (.dict [(p!"tokenUrl", (.str p!"https://example.com/api/oauth/dialog")), (p!"availableScopes", (.dict [(p!"streetlights:read", (.str p!"Scope required for subscribing to channel")), (p!"streetlights:write", (.str p!"Scope required for publishing to channel"))]))]))])), (p!"scopes", (.list [(.str p!"streetlights:write"), (.str p!"streetlights:read")]))])]))]))])), (p!"channels", (.dict [(p!"lightingMeasured", (.dict [(p!"address", (.str p!"smartylighting.streetlights.1.0.event.{streetlightId}.lighting.measured")), (p!"messages", (.dict [(p!"lightMeasured", (.dict [(p!"$ref", (.str p!"#/components/messages/lightMeasured"))]))])), (p!"description", (.str p!"The topic on which measured values may be produced and consumed.")), (p!"servers", (.list [(.dict [(p!"$ref", (.str p!"#/servers/test"))])])), (p!"parameters", (.dict [(p!"streetlightId", (.dict [(p!"$ref", (.str p!"#/components/parameters/streetlightId"))]))]))])), (p!"lightTurnOn", (.dict [(p!"address", (.str p!"smartylighting.streetlights.1.0.action.{streetlightId}.turn.on")), (p!"messages", (.dict [(p!"turnOn", (.dict [(p!"$ref", (.str p!"#/components/messages/turnOnOff"))]))])), (p!"servers", (.list [(.dict [(p!"$ref", (.str p!"#/servers/test_oauth"))])])), (p!"parameters", (.dict [(p!"streetlightId", (.dict [(p!"$ref", (.str p!"#/components/parameters/streetlightId"))]))]))])), (p!"lightTurnOff", (.dict [(p!"address", (.str p!"smartylighting.streetlights.1.0.action.{streetlightId}.turn.off")), (p!"messages", (.dict [(p!"turnOff", (.dict [(p!"$ref", (.str p!"#/components/messages/turnOnOff"))]))])), (p!"servers", (.list [(.dict [(p!"$ref", (.str p!"#/servers/test_oauth"))])])), (p!"parameters", (.dict [(p!"streetlightId", (.dict [(p!"$ref", (.str p!"#/components/parameters/streetlightId"))]))]))])), (p!"lightsDim", (.dict [(p!"address", (.str p!"smartylighting.streetlights.1.0.action.{streetlightId}.dim")), (p!"messages", (.dict [(p!"dimLight", (.dict [(p!"$ref", (.str p!"#/components/messages/dimLight"))]))])), (p!"servers", (.list [(.dict [(p!"$ref", (.str p!"#/servers/test_oauth"))])])), (p!"parameters", (.dict [(p!"streetlightId", (.dict [(p!"$ref", (.str p!"#/components/parameters/streetlightId"))]))]))]))])), (p!"operations", (.dict [(p!"receiveLightMeasurement", (.dict [(p!"action", (.str p!"receive")), (p!"channel", (.dict [(p!"$ref", (.str p!"#/channels/lightingMeasured"))])), (p!"summary", (.str p!"Inform about environmental lighting conditions of a particular streetlight.")), (p!"traits", (.list [(.dict [(p!"$ref", (.str p!"#/components/operationTraits/kafka"))])])), (p!"messages", (.list [(.dict [(p!"$ref", (.str p!"#/channels/lightingMeasured/messages/lightMeasured"))])]))])), (p!"turnOn", (.dict [(p!"action", (.str p!"send")), (p!"channel", (.dict [(p!"$ref", (.str p!"#/channels/lightTurnOn"))])), (p!"security", (.list [(.dict [(p!"type", (.str p!"oauth2")), (p!"description", (.str p!"The oauth security descriptions")), (p!"flows", (.dict [(p!"clientCredentials", (.dict [(p!"tokenUrl", (.str p!"https://example.com/api/oauth/dialog")), (p!"availableScopes", (.dict [(p!"streetlights:read", (.str p!"Scope required for subscribing to channel")), (p!"streetlights:write", (.str p!"Scope required for publishing to channel"))]))]))])), (p!"scopes", (.list [(.str p!"streetlights:read")]))])])), (p!"traits", (.list [(.dict [(p!"$ref", (.str p!"#/components/operationTraits/kafka"))])])), (p!"messages", (.list [(.dict [(p!"$ref", (.str p!"#/channels/lightTurnOn/messages/turnOn"))])]))])), (p!"turnOff", (.dict [(p!"action", (.str p!"send")), (p!"channel", (.dict [(p!"$ref", (.str p!"#/channels/lightTurnOff"))])), (p!"security", (.list [(.dict [(p!"type", (.str p!"oauth2")), (p!"description", (.str p!"The oauth security descriptions")), (p!"flows", (.dict [(p!"clientCredentials", (.dict [(p!"tokenUrl", (.str p!"https://example.com/api/oauth/dialog")), (p!"availableScopes", (.dict [(p!"streetlights:read", (.str p!"Scope required for subscribing to channel")), (p!"streetlights:write", (.str p!"Scope required for publishing to channel"))]))]))])), (p!"scopes", (.list [(.str p!"streetlights:read")]))])])), (p!"traits", (.list [(.dict [(p!"$ref", (.str p!"#/components/operationTraits/kafka"))])])), (p!"messages", (.list [(.dict [(p!"$ref", (.str p!"#/channels/lightTurnOff/messages/turnOff"))])]))])), (p!"dimLight", (.dict [(p!"action", (.str p!"send")), (p!"channel", (.dict [(p!"$ref", (.str p!"#/channels/lightsDim"))])), (p!"security", (.list [(.dict [(p!"type", (.str p!"oauth2")), (p!"description", (.str p!"The oauth security descriptions")), (p!"flows", (.dict [(p!"clientCredentials", (.dict [(p!"tokenUrl", (.str p!"https://example.com/api/oauth/dialog")), (p!"availableScopes", (.dict [(p!"streetlights:read", (.str p!"Scope required for subscribing to channel")), (p!"streetlights:write", (.str p!"Scope required for publishing to channel"))]))]))])), (p!"scopes", (.list [(.str p!"streetlights:read")]))])])), (p!"traits", (.list [(.dict [(p!"$ref", (.str p!"#/components/operationTraits/kafka"))])])), (p!"messages", (.list [(.dict [(p!"$ref", (.str p!"#/channels/lightsDim/messages/dimLight"))])]))]))])), (p!"components", (.dict [(p!"messages", (.dict [(p!"lightMeasured", (.dict [(p!"name", (.str p!"lightMeasured")), (p!"title", (.str p!"Light measured")), (p!"summary", (.str p!"Inform about environmental lighting conditions of a particular streetlight.")), (p!"contentType", (.str p!"application/json")), (p!"traits", (.list [(.dict [(p!"$ref", (.str p!"#/components/messageTraits/commonHeaders"))])])), (p!"payload", (.dict [(p!"$ref", (.str p!"#/components/schemas/lightMeasuredPayload"))]))])), (p!"turnOnOff", (.dict [(p!"name", (.str p!"turnOnOff")), (p!"title", (.str p!"Turn on/off")), (p!"summary", (.str p!"Command a particular streetlight to turn the lights on or off.")), (p!"traits", (.list [(.dict [(p!"$ref", (.str p!"#/components/messageTraits/commonHeaders"))])])), (p!"payload", (.dict [(p!"$ref", (.str p!"#/components/schemas/turnOnOffPayload"))]))])), (p!"dimLight", (.dict [(p!"name", (.str p!"dimLight")), (p!"title", (.str p!"Dim light")), (p!"summary", (.str p!"Command a particular streetlight to dim the lights.")), (p!"traits", (.list [(.dict [(p!"$ref", (.str p!"#/components/messageTraits/commonHeaders"))])])), (p!"payload", (.dict [(p!"$ref", (.str p!"#/components/schemas/dimLightPayload"))]))]))])), (p!"schemas", (.dict [(p!"lightMeasuredPayload", (.dict [(p!"type", (.str p!"object")), (p!"properties", (.dict [(p!"lumens", (.dict [(p!"type", (.str p!"integer")), (p!"minimum", (.int (0))), (p!"description", (.str p!"Light intensity measured in lumens."))])), (p!"sentAt", (.dict [(p!"$ref", (.str p!"#/components/schemas/sentAt"))]))]))])), (p!"turnOnOffPayload", (.dict [(p!"type", (.str p!"object")), (p!"properties", (.dict [(p!"command", (.dict [(p!"type", (.str p!"string")), (p!"enum", (.list [(.str p!"on"), (.str p!"off")])), (p!"description", (.str p!"Whether to turn on or off the light."))])), (p!"sentAt", (.dict [(p!"$ref", (.str p!"#/components/schemas/sentAt"))]))]))])), (p!"dimLightPayload", (.dict [(p!"type", (.str p!"object")), (p!"properties", (.dict [(p!"percentage", (.dict [(p!"type", (.str p!"integer")), (p!"description", (.str p!"Percentage to which the light should be dimmed to.")), (p!"minimum", (.int (0))), (p!"maximum", (.int (100)))])), (p!"sentAt", (.dict [(p!"$ref", (.str p!"#/components/schemas/sentAt"))]))]))])), (p!"sentAt", (.dict [(p!"type", (.str p!"string")), (p!"format", (.str p!"date-time")), (p!"description", (.str p!"Date and time when the message was sent."))]))])), (p!"securitySchemes", (.dict [(p!"saslScram", (.dict [(p!"type", (.str p!"scramSha256")), (p!"description", (.str p!"Provide your username and password for SASL/SCRAM authentication"))])), (p!"streetlights_auth", (.dict [(p!"type", (.str p!"oauth2")), (p!"description", (.str p!"The oauth security descriptions")), (p!"flows", (.dict [(p!"clientCredentials", (.dict [(p!"tokenUrl", (.str p!"https://example.com/api/oauth/dialog")), (p!"availableScopes", (.dict [(p!"streetlights:read", (.str p!"Scope required for subscribing to channel")), (p!"streetlights:write", (.str p!"Scope required for publishing to channel"))]))]))]))]))])), (p!"parameters", (.dict [(p!"streetlightId", (.dict [(p!"description", (.str p!"The ID of the streetlight."))]))])), (p!"messageTraits", (.dict [(p!"commonHeaders", (.dict [(p!"headers", (.dict [(p!"type", (.str p!"object")), (p!"properties", (.dict [(p!"my-app-header", (.dict [(p!"type", (.str p!"integer")), (p!"minimum", (.int (0))), (p!"maximum", (.int (100)))]))]))]))]))])), (p!"operationTraits", (.dict [(p!"kafka", (.dict [(p!"bindings", (.dict [(p!"kafka", (.dict [(p!"clientId", (.dict [(p!"type", (.str p!"string")), (p!"enum", (.list [(.str p!"my-app-id")]))]))]))]))]))]))]))])) : Option Unit).isSome = true := by decide +kernel

/-- `yaml_specs/valid/single_file/websocket-gemini-asyncapi.yml`, tests/test_base_validation.py:27 -/
example : (do
  discard (load .AsyncAPI3 (.dict [(p!"asyncapi", (.str p!"3.0.0")), (p!"info", (.dict [(p!"title", (.str p!"Gemini Market Data Websocket API")), (p!"version", (.str p!"1.0.0")), (p!"description", (.str p!"Market data is a public API that streams all the market data on a given symbol.\n\nYou can quickly play with the API using [websocat](https://github.com/vi/websocat#installation) like this:\n```bash\nwebsocat wss://api.gemini.com/v1/marketdata/btcusd?heartbeat=true -S\n```\n")), (p!"contact", (.dict [(p!"name", (.str p!"Gemini")), (p!"url", (.str p!"https://www.gemini.com/"))])), (p!"externalDocs", (.dict [(p!"url", (.str p!"https://docs.sandbox.gemini.com/websocket-api/#market-data"))]))])), (p!"servers", (.dict [(p!"public", (.dict [(p!"host", (.str p!"api.gemini.com")), (p!"protocol", (.str p!"wss"))]))])), (p!"channels", (.dict [(p!"marketDataV1", (.dict [(p!"address", (.str p!"/v1/marketdata/{symbol}")), (p!"messages", (.dict [(p!"marketData", (.dict [(p!"$ref", (.str p!"#/components/messages/marketData"))]))])), (p!"parameters", (.dict [(p!"symbol", (.dict [(p!"enum", (.list [(.str p!"btcusd"), (.str p!"ethbtc"), (.str p!"ethusd"), (.str p!"zecusd"), (.str p!"zecbtc"), (.str p!"zeceth"), (.str p!"zecbch"), (.str p!"zecltc"), (.str p!"bchusd"), (.str p!"bchbtc"), (.str p!"bcheth"), (.str p!"ltcusd"), (.str p!"ltcbtc"), (.str p!"ltceth"), (.str p!"ltcbch"), (.str p!"batusd"), (.str p!"daiusd"), (.str p!"linkusd"), (.str p!"oxtusd"), (.str p!"batbtc"), (.str p!"linkbtc"), (.str p!"oxtbtc"), (.str p!"bateth"), (.str p!"linketh"), (.str p!"oxteth"), (.str p!"ampusd"), (.str p!"compusd"), (.str p!"paxgusd"), (.str p!"mkrusd"), (.str p!"zrxusd"), (.str p!"kncusd"), (.str p!"manausd"), (.str p!"storjusd"), (.str p!"snxusd"), (.str p!"crvusd"), (.str p!"balusd"), (.str p!"uniusd"), (.str p!"renusd"), (.str p!"umausd"), (.str p!"yfiusd"), (.str p!"btcdai"), (.str p!"ethdai"), (.str p!"aaveusd"), (.str p!"filusd"), (.str p!"btceur"), (.str p!"btcgbp"), (.str p!"etheur"), (.str p!"ethgbp"), (.str p!"btcsgd"), (.str p!"ethsgd"), (.str p!"sklusd"), (.str p!"grtusd"), (.str p!"bntusd"), (.str p!"1inchusd"), (.str p!"enjusd"), (.str p!"lrcusd"), (.str p!"sandusd"), (.str p!"cubeusd"), (.str p!"lptusd"), (.str p!"bondusd"), (.str p!"maticusd"), (.str p!"injusd"), (.str p!"sushiusd")])), (p!"description", (.str p!"Symbols are formatted as CCY1CCY2 where prices are in CCY2 and quantities are in CCY1. To read more click [here](https://docs.sandbox.gemini.com/websocket-api/#symbols-and-minimums).\n"))]))])), (p!"bindings", (.dict [(p!"ws", (.dict [(p!"bindingVersion", (.str p!"0.1.0")), (p!"query", (.dict [(p!"type", (.str p!"object")), (p!"description", (.str p!"The semantics of entry type filtering is:\n\nIf any entry type is specified as true or false, all of them must be explicitly flagged true to show up in the response\nIf no entry types filtering parameters are included in the url, then all entry types will appear in the response\n\nNOTE: top_of_book has no meaning and initial book events are empty when only trades is specified\n")), (p!"properties", (.dict [(p!"heartbeat", (.dict [(p!"type", (.str p!"boolean")), (p!"default", (.bool false)), (p!"description", (.str p!"Optionally add this parameter and set to true to receive a heartbeat every 5 seconds"))])), (p!"top_of_book", (.dict [(p!"type", (.str p!"boolean")), (p!"default", (.bool false)), (p!"description", (.str p!"If absent or false, receive full order book depth; if present and true, receive top of book only. Only applies to bids and offers."))])), (p!"bids", (.dict [(p!"type", (.str p!"boolean")), (p!"default", (.bool true)), (p!"description", (.str p!"Include bids in change events"))])), (p!"offers", (.dict [(p!"type", (.str p!"boolean")), (p!"default", (.bool true)), (p!"description", (.str p!"Include asks in change events"))])), (p!"trades", (.dict [(p!"type", (.str p!"boolean")), (p!"default", (.bool true)), (p!"description", (.str p!"Include trade events"))])), (p!"auctions", (.dict [(p!"type", (.str p!"boolean")), (p!"default", (.bool true)), (p!"description", (.str p!"Include auction events"))]))]))]))]))]))]))])), (p!"operations", (.dict [(p!"sendMarketData", (.dict [(p!"action", (.str p!"send")), (p!"channel", (.dict [(p!"$ref", (.str p!"#/channels/marketDataV1"))])), (p!"summary", (.str p!"Receive market updates on a given symbol")), (p!"messages", (.list [(.dict [(p!"$ref", (.str p!"#/channels/marketDataV1/messages/marketData"))])]))]))])), (p!"components", (.dict [(p!"messages", (.dict [(p!"marketData", (.dict [(p!"summary", (.str p!"Message with marked data information.")), (p!"description", (.str p!"The initial response message will show the existing state of the order book. Subsequent messages will show all executed trades, as well as all other changes to the order book from orders placed or canceled.\n")), (p!"payload", (.dict [(p!"$ref", (.str p!"#/components/schemas/market"))])), (p!"examples", (.list [(.dict [(p!"name", (.str p!"updateMessage")), (p!"summary", (.str p!"Example of an update message that contains a change in price information.")), (p!"payload", (.dict [(p!"type", (.str p!"update")), (p!"eventId", (.int (36902233362))), (p!"timestamp", (.int (1619769673))), (p!"timestampms", (.int (1619769673527))), (p!"socket_sequence", (.int (661))), (p!"events", (.list [(.dict [(p!"type", (.str p!"change")), (p!"side", (.str p!"bid")), (p!"price", (.float p!"54350.4")), (p!"remaining", (.float p!"0.002")), (p!"delta", (.float p!"0.002")), (p!"reason", (.str p!"place"))])]))]))]), (.dict [(p!"name", (.str p!"heartbeatMessage")), (p!"summary", (.str p!"Example of additional heartbeat message when you enable them.")), (p!"payload", (.dict [(p!"type", (.str p!"heartbeat")), (p!"socket_sequence", (.int (1656)))]))])]))]))])), (p!"schemas", (.dict [(p!"market", (.dict [(p!"type", (.str p!"object")), (p!"oneOf", (.list [(.dict [(p!"$ref", (.str p!"#/components/schemas/heartbeat"))]), (.dict [(p!"$ref", (.str p!"#/components/schemas/update"))])]))])), (p!"heartbeat", (.dict [(p!"allOf", (.list [(.dict [(p!"properties", (.dict [(p!"type", (.dict [(p!"type", (.str p!"string")), (p!"const", (.str p!"heartbeat"))]))])), (p!"required", (.list [(.str p!"type")]))]), (.dict [(p!"$ref", (.str p!"#/components/schemas/default"))])]))])), (p!"update", (.dict [(p!"allOf", (.list [(.dict [(p!"properties", (.dict [(p!"type", (.dict [(p!"type", (.str p!"string")), (p!"const", (.str p!"update"))])), (p!"eventId", (.dict [(p!"type", (.str p!"integer")), (p!"description", (.str p!"A monotonically increasing sequence number indicating when this change occurred. These numbers are persistent and consistent between market data connections."))])), (p!"events", (.dict [(p!"$ref", (.str p!"#/components/schemas/events"))])), (p!"timestamp", (.dict [(p!"type", (.str p!"number")), (p!"description", (.str p!"The timestamp in seconds for this group of events (included for compatibility reasons). We recommend using the timestampms field instead."))])), (p!"timestampms", (.dict [(p!"type", (.str p!"number")), (p!"description", (.str p!"The timestamp in milliseconds for this group of events."))]))])), (p!"required", (.list [(.str p!"type"), (.str p!"eventId"), (.str p!"events"), (.str p!"timestamp"), (.str p!"timestampms")]))]), (.dict [(p!"$ref", (.str p!"#/components/schemas/default"))])]))])), (p!"default", (.dict [(p!"type", (.str p!"object")), (p!"description", (.str p!"This object is always part of the payload. In case of type=heartbeat, these are the only fields.")), (p!"required", (.list [(.str p!"type"), (.str p!"socket_sequence")])), (p!"properties", (.dict [(p!"socket_sequence", (.dict [(p!"type", (.str p!"integer")), (p!"description", (.str p!"zero-indexed monotonic increasing sequence number attached to each message sent - if there is a gap in this sequence, you have missed a message. If you choose to enable heartbeats, then heartbeat and update messages will share a single increasing sequence. See [Sequence Numbers](https://docs.sandbox.gemini.com/websocket-api/#sequence-numbers) for more information."))]))]))])), (p!"events", (.dict [(p!"type", (.str p!"array")), (p!"description", (.str p!"Either a change to the order book, or the indication that a trade has occurred.")), (p!"items", (.dict [(p!"type", (.str p!"object")), (p!"additionalProperties", (.bool false)), (p!"properties", (.dict [(p!"type", (.dict [(p!"type", (.str p!"string")), (p!"enum", (.list [(.str p!"trade"), (.str p!"change"), (.str p!"auction, block_trade")]))])), (p!"price", (.dict [(p!"type", (.str p!"number")), (p!"multipleOf", (.float p!"0.01")), (p!"description", (.str p!"The price of this order book entry."))])), (p!"side", (.dict [(p!"type", (.str p!"string")), (p!"enum", (.list [(.str p!"bid"), (.str p!"side")]))])), (p!"reason", (.dict [(p!"type", (.str p!"string")), (p!"enum", (.list [(.str p!"place"), (.str p!"trade"), (.str p!"cancel"), (.str p!"initial")])), (p!"description", (.str p!"Indicates why the change has occurred. initial is for the initial response message, which will show the entire existing state of the order book."))])), (p!"remaining", (.dict [(p!"type", (.str p!"number")), (p!"description", (.str p!"The quantity remaining at that price level after this change occurred. May be zero if all orders at this price level have been filled or canceled."))])), (p!"delta", (.dict [(p!"type", (.str p!"number")), (p!"description", (.str p!"The quantity changed. May be negative, if an order is filled or canceled. For initial messages, delta will equal remaining."))]))]))]))]))]))]))])) : Option Unit).isSome = true := by decide +kernel

end Verif.Conformance
