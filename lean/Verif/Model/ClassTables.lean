/-
The classification file that is put into every ILCD output and the classes the mapping file leads to.
Written by a script from the two files, category by category.
-/
import Verif.Py

namespace Verif.Classes

open Verif

/-- The categories of `Lavoisier_Default_Files/Lavoisier_Classifications/ILCDClassification.xml`
for the data type "Process": identifier and
name of each main category with those of its subcategories. -/
def processFile : List ((Str × Str) × List (Str × Str)) := [
  ((c!"1", c!"Energy carriers and technologies"), [(c!"1.1", c!"Energetic raw materials"),
    (c!"1.2", c!"Electricity"),
    (c!"1.3", c!"Heat and steam"),
    (c!"1.4", c!"Mechanical energy"),
    (c!"1.5", c!"Hard coal based fuels"),
    (c!"1.6", c!"Lignite based fuels"),
    (c!"1.7", c!"Crude oil based fuels"),
    (c!"1.8", c!"Natural gas based fuels"),
    (c!"1.9", c!"Nuclear fuels"),
    (c!"1.10", c!"Other non-renewable fuels"),
    (c!"1.11", c!"Renewable fuels")]),
  ((c!"2", c!"Materials production"), [(c!"2.1", c!"Non-energetic raw materials"),
    (c!"2.2", c!"Metals and semimetals"),
    (c!"2.3", c!"Organic chemicals"),
    (c!"2.4", c!"Inorganic chemicals"),
    (c!"2.5", c!"Glass and ceramics"),
    (c!"2.6", c!"Other mineralic materials"),
    (c!"2.7", c!"Plastics"),
    (c!"2.8", c!"Paper and cardboards"),
    (c!"2.9", c!"Water"),
    (c!"2.10", c!"Agricultural production means"),
    (c!"2.11", c!"Food and renewable raw materials"),
    (c!"2.12", c!"Wood"),
    (c!"2.13", c!"Other materials")]),
  ((c!"3", c!"Systems"), [(c!"3.1", c!"Packaging"),
    (c!"3.2", c!"Electrics and electronics"),
    (c!"3.3", c!"Vehicles"),
    (c!"3.4", c!"Other machines"),
    (c!"3.5", c!"Construction"),
    (c!"3.6", c!"White goods"),
    (c!"3.7", c!"Textiles, furnitures and other interiors"),
    (c!"3.8", c!"Unspecific parts"),
    (c!"3.9", c!"Paints and chemical preparations"),
    (c!"3.10", c!"Other systems")]),
  ((c!"4", c!"End-of-life treatment"), [(c!"4.1", c!"Reuse or further use"),
    (c!"4.2", c!"Material recycling"),
    (c!"4.3", c!"Raw material recycling"),
    (c!"4.4", c!"Energy recycling"),
    (c!"4.5", c!"Landfilling"),
    (c!"4.6", c!"Waste collection"),
    (c!"4.7", c!"Waste water treatment"),
    (c!"4.8", c!"Raw gas treatment"),
    (c!"4.9", c!"Other end-of-life services")]),
  ((c!"5", c!"Transport services"), [(c!"5.1", c!"Road"),
    (c!"5.2", c!"Rail"),
    (c!"5.3", c!"Water"),
    (c!"5.4", c!"Air"),
    (c!"5.5", c!"Other transport")]),
  ((c!"6", c!"Other Services"), [(c!"6.1", c!"Cleaning"),
    (c!"6.2", c!"Storage"),
    (c!"6.3", c!"Health, social services, beauty and wellness"),
    (c!"6.4", c!"Repair and maintenance"),
    (c!"6.5", c!"Sale and whole sale"),
    (c!"6.6", c!"Communication and information services"),
    (c!"6.7", c!"Financial, legal, and insurance"),
    (c!"6.8", c!"Administration and government"),
    (c!"6.9", c!"Defence"),
    (c!"6.10", c!"Lodging and gastronomy"),
    (c!"6.11", c!"Education"),
    (c!"6.12", c!"Research and development"),
    (c!"6.13", c!"Entertainment"),
    (c!"6.14", c!"Renting"),
    (c!"6.15", c!"Engineering and consulting"),
    (c!"6.16", c!"Other services")]),
  ((c!"7", c!"Use and consumption"), [(c!"7.1", c!"Consumption of goods"),
    (c!"7.2", c!"Use of energy-using products"),
    (c!"7.3", c!"Other use and consumption")])]

/-- The categories of `Lavoisier_Default_Files/Lavoisier_Classifications/ILCDClassification.xml`
for the data type "Flow": identifier and
name of each main category with those of its subcategories. -/
def flowFile : List ((Str × Str) × List (Str × Str)) := [
  ((c!"1", c!"Emissions"), [(c!"1.1", c!"Radioactives"),
    (c!"1.2", c!"Pesticides"),
    (c!"1.3", c!"Particles"),
    (c!"1.4", c!"Metal and semimetal elements and ions"),
    (c!"1.5", c!"Non-metallic or -semimetallic ions"),
    (c!"1.6", c!"Inorganic covalent compounds"),
    (c!"1.7", c!"Cyclic organics"),
    (c!"1.8", c!"Acylic organics"),
    (c!"1.9", c!"Other substance type")]),
  ((c!"5", c!"Energy carriers and technologies"), [(c!"5.1", c!"Energetic raw materials"),
    (c!"5.2", c!"Electricity"),
    (c!"5.3", c!"Heat and steam"),
    (c!"5.4", c!"Mechanical energy"),
    (c!"5.5", c!"Hard coal based fuels"),
    (c!"5.6", c!"Lignite based fuels"),
    (c!"5.7", c!"Crude oil based fuels"),
    (c!"5.8", c!"Natural gas based fuels"),
    (c!"5.9", c!"Nuclear fuels"),
    (c!"5.10", c!"Other non-renewable fuels"),
    (c!"5.11", c!"Renewable fuels")]),
  ((c!"6", c!"Materials production"), [(c!"6.1", c!"Raw materials"),
    (c!"6.2", c!"Metals and semimetals"),
    (c!"6.3", c!"Organic chemicals"),
    (c!"6.4", c!"Inorganic chemicals"),
    (c!"6.5", c!"Glass and ceramics"),
    (c!"6.6", c!"Other mineralic materials"),
    (c!"6.7", c!"Plastics"),
    (c!"6.8", c!"Paper and cardboards"),
    (c!"6.9", c!"Water"),
    (c!"6.10", c!"Agricultural production means"),
    (c!"6.11", c!"Food and renewable raw materials"),
    (c!"6.12", c!"Wood"),
    (c!"6.13", c!"Other materials")]),
  ((c!"7", c!"Systems"), [(c!"7.1", c!"Packaging"),
    (c!"7.2", c!"Electrics and electronics"),
    (c!"7.3", c!"Vehicles"),
    (c!"7.4", c!"Other machines"),
    (c!"7.5", c!"Construction"),
    (c!"7.6", c!"White goods"),
    (c!"7.7", c!"Textiles, furnitures and other interiors"),
    (c!"7.8", c!"Unspecific parts"),
    (c!"7.9", c!"Paints and chemical preparations"),
    (c!"7.10", c!"Other systems")]),
  ((c!"8", c!"End-of-life treatment"), [(c!"8.1", c!"Reuse or further use"),
    (c!"8.2", c!"Material recycling"),
    (c!"8.3", c!"Raw material recycling"),
    (c!"8.4", c!"Energy recycling"),
    (c!"8.5", c!"Landfilling"),
    (c!"8.6", c!"Waste collection"),
    (c!"8.7", c!"Waste water treatment"),
    (c!"8.8", c!"Raw gas treatment"),
    (c!"8.9", c!"Other end-of-life services")]),
  ((c!"9", c!"Transport services"), [(c!"9.1", c!"Road"),
    (c!"9.2", c!"Rail"),
    (c!"9.3", c!"Water"),
    (c!"9.4", c!"Air"),
    (c!"9.5", c!"Other transport")]),
  ((c!"10", c!"Other Services"), [(c!"10.1", c!"Cleaning"),
    (c!"10.2", c!"Storage"),
    (c!"10.3", c!"Health, social services, beauty and wellness"),
    (c!"10.4", c!"Repair and maintenance"),
    (c!"10.5", c!"Sale and whole sale"),
    (c!"10.6", c!"Communication and information services"),
    (c!"10.7", c!"Financial, legal, and insurance"),
    (c!"10.8", c!"Administration and government"),
    (c!"10.9", c!"Defence"),
    (c!"10.10", c!"Lodging and gastronomy"),
    (c!"10.11", c!"Education"),
    (c!"10.12", c!"Research and development"),
    (c!"10.13", c!"Entertainment"),
    (c!"10.14", c!"Renting"),
    (c!"10.15", c!"Engineering and consulting"),
    (c!"10.16", c!"Other services")]),
  ((c!"11", c!"Use and consumption"), [(c!"11.1", c!"Consumption of goods"),
    (c!"11.2", c!"Use of energy-using products"),
    (c!"11.3", c!"Other use and consumption")]),
  ((c!"12", c!"Wastes"), [(c!"12.1", c!"Mining waste"),
    (c!"12.2", c!"Construction waste"),
    (c!"12.3", c!"Production residues"),
    (c!"12.4", c!"Post consumer waste"),
    (c!"12.5", c!"Radioactive waste"),
    (c!"12.6", c!"Raw gas"),
    (c!"12.7", c!"Waste water"),
    (c!"12.8", c!"Other waste")])]

/-- The categories of `Lavoisier_Default_Files/Lavoisier_Classifications/ILCDClassification.xml`
for the data type "Source": identifier and
name of each main category with those of its subcategories. -/
def sourceFile : List ((Str × Str) × List (Str × Str)) := [
  ((c!"0", c!"Images"), []),
  ((c!"1", c!"Data set formats"), []),
  ((c!"2", c!"Databases"), []),
  ((c!"3", c!"Compliance systems"), []),
  ((c!"4", c!"Statistical classifications"), []),
  ((c!"5", c!"Publications and communications"), []),
  ((c!"6", c!"Other source types"), [])]

/-- The categories of `Lavoisier_Default_Files/Lavoisier_Classifications/ILCDClassification.xml`
for the data type "Contact": identifier and
name of each main category with those of its subcategories. -/
def contactFile : List ((Str × Str) × List (Str × Str)) := [
  ((c!"1", c!"Group of organisations, project"), []),
  ((c!"2", c!"Organisations"), [(c!"2.1", c!"Private companies"),
    (c!"2.2", c!"Governmental organisations"),
    (c!"2.3", c!"Non-governmental organisations"),
    (c!"2.4", c!"Other organisations")]),
  ((c!"3", c!"Working groups within organisation"), []),
  ((c!"4", c!"Persons"), []),
  ((c!"5", c!"Other"), [])]

/-- The pairs of `ILCD_Class_id` and `ILCD_Class` that occur in `Mappings/ecs2_to_ilcd1_classes.json`
(5391 rows), each pair once, in the order of the file. -/
def mappedPairs : List (Str × Str) := [
  (c!"2", c!"Materials production"),
  (c!"2.11", c!"Materials production/Food and renewable raw materials"),
  (c!"2.13", c!"Materials production/Other materials"),
  (c!"#N/A", c!"Materials production/Textiles, furnitures, and other interiors"),
  (c!"2.1", c!"Materials production/Non-energetic raw materials"),
  (c!"2.12", c!"Materials production/Wood"),
  (c!"1", c!"Energy carriers and technologies"),
  (c!"#N/A", c!"Energy carriers and technologies/Hard coal-based fuels"),
  (c!"1.7", c!"Energy carriers and technologies/Crude oil based fuels"),
  (c!"1.8", c!"Energy carriers and technologies/Natural gas based fuels"),
  (c!"1.9", c!"Energy carriers and technologies/Nuclear fuels"),
  (c!"2.2", c!"Materials production/Metals and semimetals"),
  (c!"2.6", c!"Materials production/Other mineralic materials"),
  (c!"2.5", c!"Materials production/Glass and ceramics"),
  (c!"1.2", c!"Energy carriers and technologies/Electricity"),
  (c!"1.10", c!"Energy carriers and technologies/Other non-renewable fuels"),
  (c!"1.3", c!"Energy carriers and technologies/Heat and steam"),
  (c!"2.9", c!"Materials production/Water"),
  (c!"3", c!"Systems"),
  (c!"3.7", c!"Systems/Textiles, furnitures and other interiors"),
  (c!"2.8", c!"Materials production/Paper and cardboards"),
  (c!"#N/A", c!"Energy carriers and technologies/Crude oil-based fuels"),
  (c!"#N/A", c!"Energy carriers and technologies/Natural gas-based fuels"),
  (c!"2.3", c!"Materials production/Organic chemicals"),
  (c!"2.4", c!"Materials production/Inorganic chemicals"),
  (c!"2.7", c!"Materials production/Plastics"),
  (c!"3.9", c!"Systems/Paints and chemical preparations"),
  (c!"#N/A", c!"Materials production/Electrics and electronics"),
  (c!"1.11", c!"Energy carriers and technologies/Renewable fuels"),
  (c!"#N/A", c!"Materials production/Textiles, furnitures and other interiors"),
  (c!"3.3", c!"Systems/Vehicles"),
  (c!"3.1", c!"Systems/Packaging"),
  (c!"6.3", c!"Other Services/Health, social services, beauty and wellness"),
  (c!"3.5", c!"Systems/Construction"),
  (c!"6.13", c!"Other Services/Entertainment"),
  (c!"6.16", c!"Other Services/Other services"),
  (c!"6.11", c!"Other Services/Education"),
  (c!"#N/A", c!"Other Services/Office and administration"),
  (c!"6.15", c!"Other Services/Engineering and consulting"),
  (c!"6.6", c!"Other Services/Communication and information services"),
  (c!"3.8", c!"Systems/Unspecific parts"),
  (c!"6.1", c!"Other Services/Cleaning"),
  (c!"#N/A", c!"Other Services/Beauty and wellness"),
  (c!"#N/A", c!"Wastes"),
  (c!"#N/A", c!"Wastes/Production residues"),
  (c!"#N/A", c!"Wastes/Post consumer waste"),
  (c!"#N/A", c!"Wastes/Construction waste"),
  (c!"#N/A", c!"Wastes/Other waste"),
  (c!"3.6", c!"Systems/White goods"),
  (c!"3.4", c!"Systems/Other machines"),
  (c!"6.9", c!"Other Services/Defence"),
  (c!"3.2", c!"Systems/Electrics and electronics"),
  (c!"6.12", c!"Other Services/Research and development"),
  (c!"6.8", c!"Other Services/Administration and government"),
  (c!"6.7", c!"Other Services/Financial, legal, and insurance"),
  (c!"6", c!"Other Services"),
  (c!"#N/A", c!"Systems/Transport services"),
  (c!"5.3", c!"Transport services/Water"),
  (c!"5.2", c!"Transport services/Rail"),
  (c!"5.4", c!"Transport services/Air"),
  (c!"5.1", c!"Transport services/Road"),
  (c!"6.5", c!"Other Services/Sale and whole sale"),
  (c!"6.10", c!"Other Services/Lodging and gastronomy"),
  (c!"5", c!"Transport services"),
  (c!"5.5", c!"Transport services/Other transport"),
  (c!"6.14", c!"Other Services/Renting"),
  (c!"6.2", c!"Other Services/Storage"),
  (c!"#N/A", c!"Other Services/Sale and wholesale"),
  (c!"6.4", c!"Other Services/Repair and maintenance"),
  (c!"#N/A", c!"Other Services/Agricultural production means"),
  (c!"4.2", c!"End-of-life treatment/Material recycling"),
  (c!"4.5", c!"End-of-life treatment/Landfilling"),
  (c!"4.4", c!"End-of-life treatment/Energy recycling"),
  (c!"4.9", c!"End-of-life treatment/Other end-of-life services"),
  (c!"2.10", c!"Materials production/Agricultural production means"),
  (c!"1.1", c!"Energy carriers and technologies/Energetic raw materials"),
  (c!"3.10", c!"Systems/Other systems"),
  (c!"1.4", c!"Energy carriers and technologies/Mechanical energy"),
  (c!"#N/A", c!"Energy carriers and technologies/Oil and gas extraction"),
  (c!"#N/A", c!"Systems/Rail"),
  (c!"#N/A", c!"Systems/Air"),
  (c!"#N/A", c!"Systems/Furnitures and other interiors"),
  (c!"#N/A", c!"Energy carriers and technologies/Liquid fuels"),
  (c!"4", c!"End-of-life treatment"),
  (c!"4.7", c!"End-of-life treatment/Waste water treatment"),
  (c!"4.6", c!"End-of-life treatment/Waste collection"),
  (c!"4.1", c!"End-of-life treatment/Reuse or further use"),
  (c!"6.10", c!"Other services/Lodging and gastronomy"),
  (c!"6.16", c!"Other services/Other services"),
  (c!"6.13", c!"Other services/Entertainment"),
  (c!"6.6", c!"Other services/Communication and information services"),
  (c!"6.7", c!"Other services/Financial, legal, and insurance"),
  (c!"6.11", c!"Other services/Education"),
  (c!"7", c!"Use and Consumption"),
  (c!"7.3", c!"Use and consumption/Other use and consumption")]

end Verif.Classes
