import Verif.Spec.Hash
import Verif.Spec.Session
import Verif.Model.Verify
import Verif.Model.Names
import Verif.Model.Api
import Verif.Model.Contract
import Verif.Proof.Session
import Verif.Proof.Keygen
import Verif.Properties.Hashes
import Verif.Properties.Signing
import Verif.Properties.Verifying
import Verif.Properties.Keys
import Verif.Properties.Session
import Verif.Properties.Structure
import Verif.Properties.OneTime
import Verif.Properties.Binding
import Verif.Properties.Reads
import Verif.Model.Clients
import Verif.Model.HashVectors
import Verif.Properties.Clients
import Verif.Properties.Tests
import Verif.Properties.Driver
import Verif.Properties.InPlace
import Verif.Properties.Leak
import Verif.Properties.Layout
import Verif.Properties.Cost
import Verif.Properties.CostVerify
import Verif.Properties.Machine
import Verif.Properties.Stack
import Verif.Properties.Peak
import Verif.Properties.Work
import Verif.Properties.WorkVerify
import Verif.Properties.Latency
import Verif.Properties.KnownAnswers
import Verif.Properties.Forgery
import Verif.Properties.Heap
import Verif.Properties.Residue
