graphics/font_lookup.cc | the fontconfig and FreeType calls (parameters: search of a pattern, opening of a file, loading of an outline)
graphics/rasterize.cc | writing the surface as PNG; cairo itself is represented by the documented meaning of its calls
graphics/png.cc | libpng itself (what is handed to it: Model/Png)
graphics/text.cc | all: small constructors
graphics/text_backend.cc | all: dispatch to the FreeType backend
graphics/brush.cc | all: empty
graphics/draw.cc | all: empty
graphics/text_shaper.cc | 1-106: harfbuzz calls (parameter)
graphics/text_backend_freetype.cc | FreeType outline calls (parameter)
return_code.cc | constructors of error values (the texts of err_invalid_value: Model/Messages)
style.cc | default constructors (modelled with style.h)
utils/exception.cc | exception texts
utils/option_impl.h | modelled in OptionCell; elsewhere represented by Lean's Option
utils/CivilTime.cc | strptime itself (modelled after glibc for ten conversions in Model/Strptime); one-line setters
utils/file.cc | error texts; elsewhere the reading of files is represented by a partial function
utils/UnixTime.cc | strftime itself (by its documented meaning in C119)
data.cc | error texts
