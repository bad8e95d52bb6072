Not modelled: plotting (`PlotInterface`, apart from what is in the table), the graphical tool, logging, progress bars, command line parsing, download of
data sets, reading and writing of the netCDF, shapefile, GDAL and SQLite formats themselves (their contracts are stated
where they are used), random number generation (variates are arbitrary parameters), floating-point rounding
(except in `Model/Binary64`, `Model/Times64`, `Model/Fuzzy`, `Model/Arange64` and `Model/TrackDates`, which round to 53 binary digits), and the
files of `/repo` that are not in the table.
