import Verif.Property.Sets
import Verif.Property.Patterns
import Verif.Property.PatternForms
import Verif.Property.Marks
import Verif.Property.Objects
import Verif.Property.Frames
import Verif.Property.Nameless
import Verif.Property.Records
import Verif.Property.Resources
import Verif.Property.Listings
import Verif.Property.PatternMatching
import Verif.Property.PatternMap
import Verif.Property.Isomorphism
import Verif.Property.BlankId
import Verif.Property.Terms
import Verif.Property.Contents
import Verif.Property.Documents
import Verif.Property.Display
import Verif.Property.Interpretation
import Verif.Property.Fallible
import Verif.Property.Search
import Verif.Property.Found
import Verif.Property.Walk
import Verif.Property.Tree
import Verif.Property.Serde
import Verif.Property.Macro
import Verif.Property.First
import Verif.Property.Untangled
import Verif.Property.Quoted
import Verif.Property.Meaning
import Verif.Property.Panics
import Verif.Property.Formatting
import Verif.Property.Mapping
import Verif.Property.Alike
import Verif.Property.Spelling
import Verif.Property.Book
import Verif.Property.Steps
import Verif.Property.Linked
import Verif.Property.Debugging
import Verif.Property.DebugTerms
import Verif.Property.DebugPatterns
import Verif.Property.PatternOrder
import Verif.Property.PatternHash
import Verif.Property.Uuid
