import Verif.Props
import Verif.Axioms
