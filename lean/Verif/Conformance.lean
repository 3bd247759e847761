import Verif.Conformance.Asyncapi
import Verif.Conformance.Base
import Verif.Conformance.BaseValidation
import Verif.Conformance.BindingsAmqp
import Verif.Conformance.BindingsAmqp1
import Verif.Conformance.BindingsAnypointmq
import Verif.Conformance.BindingsCore
import Verif.Conformance.BindingsGooglepubsub
import Verif.Conformance.BindingsHttp
import Verif.Conformance.BindingsIbmmq
import Verif.Conformance.BindingsJms
import Verif.Conformance.BindingsKafka
import Verif.Conformance.BindingsMercure
import Verif.Conformance.BindingsMqtt
import Verif.Conformance.BindingsMqtt5
import Verif.Conformance.BindingsNats
import Verif.Conformance.BindingsPulsar
import Verif.Conformance.BindingsRedis
import Verif.Conformance.BindingsSns
import Verif.Conformance.BindingsSolace
import Verif.Conformance.BindingsSqs
import Verif.Conformance.BindingsStomp
import Verif.Conformance.BindingsWebsockets
import Verif.Conformance.Channel
import Verif.Conformance.Components
import Verif.Conformance.ExternalDocsRefValidator
import Verif.Conformance.Helpers
import Verif.Conformance.Info
import Verif.Conformance.Message
import Verif.Conformance.Operation
import Verif.Conformance.ReferenceUtils
import Verif.Conformance.Schema
import Verif.Conformance.Security
import Verif.Conformance.Server
import Verif.Conformance.TagsRefValidator
import Verif.Conformance.UnifiedReferencesValidator
/-!
The tests of the package, translated (`tools/gen_conformance.py`) and run on the model by the kernel. These are tests of the
model, not proofs of properties; they are what ties `Verif/Model` to the behaviour that the package's authors checked.
-/
