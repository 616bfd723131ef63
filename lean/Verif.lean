import Verif.Base
import Verif.Gosql.Model
import Verif.Gosql.Props
import Verif.Filter.Model
import Verif.Filter.Spec
import Verif.Filter.Lemmas
import Verif.Filter.Lemmas2
import Verif.Filter.Lemmas3
import Verif.Filter.Lemmas4
import Verif.Filter.Props
import Verif.Pgsql.Model
import Verif.Pgsql.Codecs
import Verif.Pgsql.Spec
import Verif.Pgsql.Lemmas
import Verif.Pgsql.Lemmas2
import Verif.Pgsql.Lemmas3
import Verif.Pgsql.PropsText
import Verif.Pgsql.Lemmas4
import Verif.Pgsql.Lemmas5
import Verif.Pgsql.PropsScalar
import Verif.Pgsql.SpecInt
import Verif.Pgsql.Ints
import Verif.Pgsql.Lemmas6
import Verif.Pgsql.PropsInts
import Verif.Pgsql.Nulls
import Verif.Pgsql.PropsNull
import Verif.Pgsql.Geo
import Verif.Pgsql.PropsGeo
import Verif.Pgsql.PropsMore
import Verif.Pgsql.Time
import Verif.Pgsql.LemmasTime
import Verif.Pgsql.PropsTime
import Verif.Pgsql.SpecTime
import Verif.Pgsql.PropsTime2
import Verif.Pgsql.PropsTime3
import Verif.Pgsql.PropsTimeArr
import Verif.Pgsql.PropsTimeArr2
import Verif.Pgsql.PropsTimeArr3
import Verif.Pgsql.PropsSearch
import Verif.Pgsql.PropsSearch2
import Verif.Pgsql.PropsSearch3
import Verif.Analysis.Rx
import Verif.Analysis.Ident
import Verif.Analysis.PropsIdent
import Verif.Analysis.Expr
import Verif.Analysis.PropsExpr
import Verif.Analysis.Types
import Verif.Analysis.Mode
import Verif.Analysis.PropsMode
import Verif.Analysis.Fields
import Verif.Analysis.PropsKeys
import Verif.Analysis.Where
import Verif.Analysis.PropsWhere
import Verif.Analysis.Query
import Verif.Analysis.PropsQuery
import Verif.Analysis.PropsQuery2
import Verif.Postgres.Tables
import Verif.Postgres.Types
import Verif.Postgres.Check
import Verif.Postgres.PropsConflict
import Verif.Postgres.PropsOrder
import Verif.Postgres.PropsFields
import Verif.Postgres.PropsTable
import Verif.Postgres.PropsCompat
import Verif.Generator.Ast
import Verif.Generator.Gen
import Verif.Generator.Spec
import Verif.Generator.Lemmas
import Verif.Generator.LemmasCond
import Verif.Generator.LemmasParams
import Verif.Generator.LemmasStmt
import Verif.Generator.Accepted
import Verif.Generator.LemmasCover
import Verif.Generator.Pipeline
import Verif.Generator.Witness
import Verif.Generator.PropsParams
import Verif.Generator.PropsParams2
import Verif.Generator.Run
import Verif.Generator.PropsSlices
import Verif.Generator.PropsLimit
import Verif.Generator.PropsBatch
import Verif.Generator.PropsBatch2
import Verif.Generator.PropsMass
import Verif.Generator.Output
import Verif.Generator.PropsInit
import Verif.Generator.PropsOutput
import Verif.Generator.PropsOutput2
import Verif.Generator.Imports
import Verif.Generator.PropsImports
import Verif.Generator.FilterGen
import Verif.Generator.PropsFilterGen
import Verif.Generator.PropsFilterGen2
import Verif.Generator.Sem
import Verif.Generator.PropsMeaning
import Verif.Generator.PropsMeaning2
import Verif.Generator.PropsMeaning3
import Verif.Config.Model
import Verif.Config.Props
import Verif.Config.PropsText
import Verif.Command.Model
import Verif.Command.PropsNames
import Verif.Command.Props
import Verif.Command.PropsSearch
import Verif.Generator.PropsNull
import Verif.Generator.PropsNull2
import Verif.Generator.PropsFiltered
import Verif.Generator.PropsFiltered2
import Verif.Generator.Errors
import Verif.Generator.PropsErrors
import Verif.Generator.PropsErrors2
import Verif.Config.PropsKeys
import Verif.Generator.Quals
import Verif.Generator.PropsQuals
import Verif.Generator.PropsQuals2
import Verif.Typesutil.Model
import Verif.Typesutil.Props
import Verif.Typesutil.Props2
import Verif.Typesutil.PropsCases
import Verif.Config.PropsArgType
import Verif.Analysis.PropsCache
import Verif.Analysis.PropsCache2
import Verif.Pgsql.Money
import Verif.Pgsql.SpecMoney
import Verif.Pgsql.PropsMoney
import Verif.Analysis.PropsCache3
import Verif.Pgsql.Net
import Verif.Pgsql.SpecNet
import Verif.Pgsql.PropsNet
import Verif.Pgsql.PropsNet2
import Verif.Pgsql.PropsNet3
import Verif.Pgsql.PropsNet4
import Verif.Pgsql.PropsMac
import Verif.Errors.Template
import Verif.Errors.AnText
import Verif.Errors.DbCode
import Verif.Errors.DbText
import Verif.Errors.Analysis
import Verif.Errors.Postgres
import Verif.Errors.Props
import Verif.Errors.Sites
import Verif.Errors.PropsDb
import Verif.Errors.PropsCheck
import Verif.Errors.PropsCases
import Verif.Errors.PropsText
import Verif.Pgsql.SpecFloat
import Verif.Pgsql.Floats
import Verif.Pgsql.PropsFloat
import Verif.Pgsql.PropsFloat2
import Verif.Pgsql.PropsFloat3
import Verif.Pgsql.PropsFloat4
import Verif.Pgsql.PropsFloat5
import Verif.Pgsql.PropsFloat6
import Verif.Generator.Db
import Verif.Generator.PropsDb
import Verif.Generator.PropsDb2
import Verif.Generator.PropsDb3
import Verif.Generator.PropsDb4
import Verif.Generator.PropsDb5
import Verif.Generator.PropsDb6
import Verif.Generator.PropsDb7
import Verif.Conform.Base
import Verif.Conform.Types
import Verif.Conform.BadCases
import Verif.Conform.OkCases
import Verif.Conform.Eq
import Verif.Conform.PropsAnalysis
import Verif.Conform.TestCat
import Verif.Conform.TestDb
import Verif.Conform.CheckCases
import Verif.Conform.PropsCheck
import Verif.Generator.Print
import Verif.Conform.GoldTypes
import Verif.Conform.GoldBase
import Verif.Conform.GoldDelete
import Verif.Conform.GoldSelect
import Verif.Conform.GoldInsert
import Verif.Conform.GoldUpdate
import Verif.Conform.GoldFilter
import Verif.Conform.GoldPgsql
import Verif.Conform.PropsDelete
import Verif.Conform.PropsSelect
import Verif.Conform.PropsInsert
import Verif.Conform.PropsUpdate
import Verif.Conform.PropsFilter
import Verif.Conform.PropsPgsql
import Verif.Pgsql.Doc
import Verif.Pgsql.PropsDoc
import Verif.Conform.FilterBase
import Verif.Conform.FilterCases
import Verif.Conform.PropsFilterTest
import Verif.Analysis.PropsNamed
import Verif.Generator.SpecLex
import Verif.Generator.Toks
import Verif.Generator.PropsLex
import Verif.Generator.PropsLex2
import Verif.Generator.PropsLex3
import Verif.Generator.PropsLex4
import Verif.Generator.PropsLex5
import Verif.Generator.PropsImports2
import Verif.Generator.PropsLex6
import Verif.Generator.PropsLex7
import Verif.Typesutil.Time
import Verif.Conform.TypesCases
import Verif.Conform.PropsTypes
import Verif.Generator.SpecGram
import Verif.Generator.Trees
import Verif.Generator.PropsGram
import Verif.Generator.PropsGram2
import Verif.Generator.PropsGram3
import Verif.Generator.PropsGram4
import Verif.Generator.PropsGram5
import Verif.Generator.PropsGram6
import Verif.Generator.PropsGram7
import Verif.Generator.PropsGram8
import Verif.Generator.PropsGram9
import Verif.Generator.PropsGram10
import Verif.Filter.Conditions
import Verif.Filter.PropsConditions
import Verif.Generator.FilterTrees
import Verif.Generator.PropsFGram
import Verif.Generator.PropsFGram2
import Verif.Generator.PropsFGram3
import Verif.Generator.PropsFGram4
import Verif.Analysis.PropsDirective
import Verif.Generator.FilterMeaning
import Verif.Generator.PropsFMeaning
import Verif.Generator.PropsFMeaning2
import Verif.Generator.PropsFMeaning3
import Verif.Generator.TreeMeaning
import Verif.Generator.PropsTree
import Verif.Generator.PropsTree2
import Verif.Generator.PropsTree3
import Verif.Generator.PropsTree4
import Verif.Generator.TreeDb
import Verif.Generator.PropsTreeDb
import Verif.Generator.PropsTreeDb2
import Verif.Generator.PropsTreeDb3
import Verif.Generator.PropsTreeDb4
import Verif.Generator.PropsTreeDb5
import Verif.Generator.PropsTreeDb6
import Verif.Generator.PropsTreeDb7
import Verif.Generator.TreeFilterDb
import Verif.Generator.PropsFilterDb
import Verif.Generator.PropsFilterDb2
import Verif.Generator.PropsFilterDb3
import Verif.Generator.PropsFilterDb4
import Verif.Generator.PropsFilterDb5
import Verif.Conform.PgServer
import Verif.Conform.PgCases1
import Verif.Conform.PgCases2
import Verif.Conform.PgCases3
import Verif.Conform.PgCases4
import Verif.Conform.PropsPgCases
import Verif.Generator.Converters
import Verif.Generator.PropsConverters
import Verif.Analysis.PropsCrash
import Verif.Postgres.PropsCrash
import Verif.Generator.Tool
import Verif.Generator.PropsCrash
import Verif.Pgsql.Pairs
import Verif.Pgsql.PropsPairs
import Verif.Pgsql.PropsBothWays
import Verif.Generator.Driver
import Verif.Generator.PropsDriver
import Verif.Analysis.PropsOrder
import Verif.Analysis.PropsOrder2
import Verif.Postgres.Load
import Verif.Postgres.PropsLoad
import Verif.Postgres.PropsLoad2
import Verif.Postgres.PropsLoad3
import Verif.Analysis.PropsScope
import Verif.Generator.Scope
import Verif.Generator.PropsScope
import Verif.Generator.PropsScope2
import Verif.Generator.PropsScope3
import Verif.Generator.PropsScope4
import Verif.Generator.GoScope
import Verif.Generator.PropsGoScope
import Verif.Generator.PropsGoScope2
import Verif.Generator.PropsGoScope3
import Verif.Generator.PropsGoScope4
import Verif.Generator.PropsGoScope5
import Verif.Generator.PropsGoScope6
import Verif.Generator.GoDecls
import Verif.Generator.PropsGoDecls
import Verif.Generator.PropsGoDecls2
import Verif.Generator.GoTypes
import Verif.Generator.PropsGoTypes
import Verif.Generator.PropsGoTypes2
import Verif.Generator.PropsGoTypes3
import Verif.Generator.PropsGoTypes4
import Verif.Generator.PropsGoScope7
import Verif.Generator.PropsGoFields
import Verif.Generator.PropsGoFields2
import Verif.Generator.PropsGoQuery
import Verif.Generator.PropsGoQuery2
import Verif.Generator.PropsGoQuery3
import Verif.Generator.PropsGoQuery4
import Verif.Generator.PropsGoQuery5
import Verif.Generator.PropsGoQuery6
